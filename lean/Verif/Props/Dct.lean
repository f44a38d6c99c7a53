import Verif.Proof.Dct
import Verif.Props.RandBits
import Verif.Props.Sums
import Mathlib.LinearAlgebra.Matrix.NonsingularInverse
/-
C72, C73, C74: the discrete cosine transform test.
-/
namespace Dh
open Spec

/-! ### C72: the transforms -/

/-- **C72.** `fDCT2_fft` computes the type II discrete cosine transform of its input when the length is a power of two or at most 4,
and the program aborts (GSL's error handler) for every other length. -/
theorem C72_transform (input : List UInt) (output : List ℝ) (len : Nat) (hin : len ≤ input.length) (hout : output.length = len) :
    ((∃ e, len = 2 ^ e) ∨ len ≤ 4 →
      fDCT2fft input output len = .ok ((List.range len).map (dctCoeff (fun j => (input.getD j 0).toNat) len))) ∧
    ((∀ e, len ≠ 2 ^ e) → 4 < len → fDCT2fft input output len = .exit) := by
  refine ⟨?_, fun h1 h2 => fDCT2fft_abort input output len h2 h1 hin⟩
  rintro (⟨e, he⟩ | h)
  · exact fDCT2fft_spec input output e len (.inl he) hin hout
  · exact fDCT2fft_spec input output 0 len (.inr h) hin hout

/-- The transform of `(1, 0, 0, 0, 0, 0, 0, 0)` starts with 1. -/
example : ∃ l, fDCT2fft [1, 0, 0, 0, 0, 0, 0, 0] (List.replicate 8 7) 8 = .ok (1 :: l) := by
  rw [(C72_transform [1, 0, 0, 0, 0, 0, 0, 0] (List.replicate 8 7) 8 (by simp) (by simp)).1 (.inl ⟨3, rfl⟩)]
  refine ⟨((List.range 7).map Nat.succ).map (dctCoeff (fun j => (BitVec.toNat (([1, 0, 0, 0, 0, 0, 0, 0] : List UInt).getD j 0))) 8),
    congrArg Res.ok ?_⟩
  rw [List.range_succ_eq_map, List.map_cons]
  congr 1
  norm_num [dctCoeff, Finset.sum_range_succ]
  rfl

theorem idctSum_spec (input : List ℝ) (len i : Nat) (hin : len ≤ input.length) : ∀ (todo j : Nat) (sum : ℝ), j + todo = len →
    idctSum input len i todo j sum = .ok (sum + ∑ t ∈ Finset.range todo,
      input.getD (j + t) 0 * Real.cos (Real.pi * (j + t : ℕ) * (2 * i + 1) / (2 * len))) := by
  intro todo
  induction todo with
  | zero => intro j sum _; rw [idctSum, Finset.sum_range_zero, add_zero]
  | succ todo ih =>
    intro j sum hj
    rw [idctSum, rd_dflt 0 (show j < input.length by omega), Res.bind_ok, ih (j + 1) _ (by omega), Finset.sum_range_succ', add_zero]
    congr 1
    have hlen : (len : ℝ) ≠ 0 := by
      have : 0 < len := by omega
      positivity
    have hc : Real.pi * j / len * (0.5 + i) = Real.pi * (j : ℕ) * (2 * i + 1) / (2 * len) := by field_simp; ring
    rw [hc, add_assoc, add_comm (_ * _) (Finset.sum _ _)]
    congr 2
    refine Finset.sum_congr rfl fun t _ => ?_
    rw [show j + 1 + t = j + (t + 1) by omega]

theorem idctOuter_spec (input : List ℝ) (len : Nat) (hin : len ≤ input.length) (g : ℕ → ℝ)
    (hg : ∀ i, g i = ((∑ t ∈ Finset.range len, input.getD t 0 * Real.cos (Real.pi * t * (2 * i + 1) / (2 * len))) - input.getD 0 0 / 2) /
      (len / 2 : ℕ)) : ∀ (todo i : Nat) (output : List ℝ), i + todo = len → output.length = len → (∀ k < i, output.getD k 0 = g k) →
    idctOuter input len todo i output = .ok ((List.range len).map g) := by
  intro todo
  induction todo with
  | zero =>
    intro i output hi hl hd
    rw [idctOuter]
    congr 1
    apply List.ext_getElem
    · simp [hl]
    · intro k h1 h2
      rw [List.getElem_map, List.getElem_range, ← hd k (by omega), List.getD_eq_getElem _ _ h1]
  | succ todo ih =>
    intro i output hi hl hd
    rw [idctOuter, idctSum_spec input len i hin len 0 0 (by omega), Res.bind_ok, rd_dflt 0 (show 0 < input.length by omega), Res.bind_ok,
      wr, if_pos (by omega), Res.bind_ok]
    refine ih (i + 1) _ (by omega) (by simpa using hl) fun k hk => ?_
    rw [getD_set _ _ _ _ (by omega)]
    split
    · subst k
      rw [hg, zero_add]
      simp only [Nat.zero_add]
    · exact hd k (by omega)

/-- The transposed orthogonality: summing over the frequencies, the constant one with weight one half. -/
theorem dct_orthogonal' (N a b : ℕ) (ha : a < N) (hb : b < N) :
    ∑ k ∈ Finset.range N, (if k = 0 then (1 / 2 : ℝ) else 1) *
      (Real.cos (Real.pi * k * (2 * a + 1) / (2 * N)) * Real.cos (Real.pi * k * (2 * b + 1) / (2 * N))) =
      if a = b then (N / 2 : ℝ) else 0 := by
  have hN : (0 : ℝ) < N := by
    have : 0 < N := by omega
    positivity
  let A : Matrix (Fin N) (Fin N) ℝ := fun k j => Real.cos (Real.pi * (k : ℕ) * (2 * (j : ℕ) + 1) / (2 * N))
  let B : Matrix (Fin N) (Fin N) ℝ := fun j k => (if (k : ℕ) = 0 then (1 / N : ℝ) else 2 / N) * A k j
  have h1 : A * B = 1 := by
    ext k l
    rw [Matrix.mul_apply]
    have : ∀ j, A k j * B j l = (if (l : ℕ) = 0 then (1 / N : ℝ) else 2 / N) * (A k j * A l j) := fun j => by
      show _ * (_ * _) = _
      ring
    simp_rw [this]
    rw [← Finset.mul_sum, Finset.sum_fin_eq_sum_range]
    have hs := dct_orthogonal N k l k.2 l.2
    rw [Finset.sum_congr rfl (g := fun j : ℕ => Real.cos (Real.pi * (k : ℕ) * (2 * j + 1) / (2 * N)) *
      Real.cos (Real.pi * (l : ℕ) * (2 * j + 1) / (2 * N))) (fun j hj => by rw [dif_pos (Finset.mem_range.1 hj)]), hs, Matrix.one_apply]
    by_cases hkl : k = l
    · subst hkl
      rw [if_pos rfl, if_pos rfl]
      split <;> field_simp
    · rw [if_neg hkl, if_neg (fun h => hkl (Fin.ext h)), mul_zero]
  have h2 : B * A = 1 := mul_eq_one_comm.1 h1
  have h3 := congrFun (congrFun h2 ⟨a, ha⟩) ⟨b, hb⟩
  rw [Matrix.mul_apply, Matrix.one_apply, Finset.sum_fin_eq_sum_range] at h3
  have h4 : ∀ k ∈ Finset.range N, (if k = 0 then (1 / 2 : ℝ) else 1) *
      (Real.cos (Real.pi * k * (2 * a + 1) / (2 * N)) * Real.cos (Real.pi * k * (2 * b + 1) / (2 * N))) =
      N / 2 * (if h : k < N then B ⟨a, ha⟩ ⟨k, h⟩ * A ⟨k, h⟩ ⟨b, hb⟩ else 0) := by
    intro k hk
    rw [dif_pos (Finset.mem_range.1 hk)]
    show _ = N / 2 * ((if k = 0 then (1 / N : ℝ) else 2 / N) * Real.cos (Real.pi * k * (2 * a + 1) / (2 * N)) *
      Real.cos (Real.pi * k * (2 * b + 1) / (2 * N)))
    split <;> field_simp
  rw [Finset.sum_congr rfl h4, ← Finset.mul_sum, h3]
  by_cases hab : a = b
  · subst hab; simp
  · rw [if_neg hab, if_neg (by simpa using hab), mul_zero]

/-- **C72.** `iDCT2` undoes the transform for every even length; for an odd length from 3 on it returns the input times
`len / (len - 1)`, because `len / 2` is an integer division. -/
theorem C72_inverse (x : ℕ → ℝ) (input output : List ℝ) (len : Nat) (h2 : 2 ≤ len)
    (hin : input = (List.range len).map (dctCoeff x len)) (hout : output.length = len) :
    iDCT2 input output len = .ok ((List.range len).map fun i => if len % 2 = 0 then x i else x i * (len / (len - 1 : ℝ))) := by
  have hil : input.length = len := by rw [hin]; simp
  have hget : ∀ t < len, input.getD t 0 = dctCoeff x len t := by
    intro t ht
    rw [List.getD_eq_getElem _ _ (by omega)]
    subst hin
    simp
  have hN : (0 : ℝ) < len := by
    have : 0 < len := by omega
    positivity
  rw [iDCT2, idctOuter_spec input len (by omega) _ (fun i => rfl) len 0 output (by omega) hout (by omega)]
  congr 1
  refine List.map_congr_left fun i hi => ?_
  have hi := List.mem_range.1 hi
  have key : (∑ t ∈ Finset.range len, input.getD t 0 * Real.cos (Real.pi * t * (2 * i + 1) / (2 * len))) - input.getD 0 0 / 2 =
      x i * (len / 2) := by
    have e0 : input.getD 0 0 / 2 = ∑ t ∈ Finset.range len, if t = 0 then dctCoeff x len 0 / 2 else 0 := by
      rw [Finset.sum_ite_eq' (Finset.range len) 0 (fun _ => dctCoeff x len 0 / 2), if_pos (Finset.mem_range.2 (by omega)), hget 0 (by omega)]
    rw [e0, ← Finset.sum_sub_distrib]
    have e1 : ∀ t ∈ Finset.range len, input.getD t 0 * Real.cos (Real.pi * t * (2 * i + 1) / (2 * len)) -
        (if t = 0 then dctCoeff x len 0 / 2 else 0) = ∑ j ∈ Finset.range len, x j * ((if t = 0 then (1 / 2 : ℝ) else 1) *
          (Real.cos (Real.pi * t * (2 * j + 1) / (2 * len)) * Real.cos (Real.pi * t * (2 * i + 1) / (2 * len)))) := by
      intro t ht
      rw [hget t (Finset.mem_range.1 ht)]
      by_cases h0 : t = 0
      · subst h0
        simp only [if_true, dctCoeff, Nat.cast_zero, mul_zero, zero_mul, zero_div, Real.cos_zero, mul_one]
        rw [Finset.sum_div, ← Finset.sum_sub_distrib]
        refine Finset.sum_congr rfl fun j _ => by ring
      · simp only [if_neg h0, dctCoeff, sub_zero, one_mul]
        rw [Finset.sum_mul]
        refine Finset.sum_congr rfl fun j _ => by ring
    rw [Finset.sum_congr rfl e1, Finset.sum_comm]
    simp_rw [← Finset.mul_sum]
    rw [Finset.sum_congr rfl (fun j hj => by rw [dct_orthogonal' len j i (Finset.mem_range.1 hj) hi])]
    rw [Finset.sum_eq_single i]
    · rw [if_pos rfl]
    · intro j _ hj; rw [if_neg hj, mul_zero]
    · intro h; exact absurd (Finset.mem_range.2 hi) h
  rw [key]
  split
  · rename_i he
    have hc : ((len / 2 : ℕ) : ℝ) = len / 2 := by
      rw [Nat.cast_div (Nat.dvd_of_mod_eq_zero he) (by norm_num)]; norm_num
    rw [hc]
    field_simp
  · rename_i ho
    have hc : ((len / 2 : ℕ) : ℝ) = (len - 1) / 2 := by
      have : 2 * (len / 2) + 1 = len := by omega
      have h : ((2 * (len / 2) + 1 : ℕ) : ℝ) = len := by rw [this]
      push_cast at h
      linarith
    have : (2 : ℝ) ≤ len := by exact_mod_cast h2
    have h1 : (len : ℝ) - 1 ≠ 0 := by linarith
    rw [hc]
    field_simp

/-- Transforming `(3, 5, 1)` back and forth with the odd length 3 gives `(4.5, 7.5, 1.5)`. -/
example : iDCT2 ((List.range 3).map (dctCoeff (fun i => [3, 5, 1].getD i 0) 3)) [0, 0, 0] 3 = .ok [4.5, 7.5, 1.5] := by
  rw [C72_inverse (fun i => [3, 5, 1].getD i 0) _ [0, 0, 0] 3 (by omega) rfl rfl]
  norm_num [List.range_succ]

/-! ### C73: the test -/

namespace Spec

/-- The `r`-bit word `x` rotated left by `n ≤ r` places. -/
def rotWord (r n x : Nat) : Nat := (x * 2 ^ n) % 2 ^ r + x / 2 ^ (r - n)

/-- Word `i` of block `j` of the test: the draws are rotated by a quarter of the width after every quarter of the blocks. -/
def dctBlock (r tsamples len : Nat) (src : Src) (j i : Nat) : Nat :=
  rotWord r (r / 4 * (j / (tsamples / 4))) (src (j * len + i)).toNat

/-- The coefficients with the constant one moved to mean 0 and divided by `√2`. -/
noncomputable def dctAdjusted (r : Nat) (x : ℕ → ℝ) (N k : Nat) : ℝ :=
  if k = 0 then (dctCoeff x N 0 - N * ((2 ^ r - 1) / 2)) / Real.sqrt 2 else dctCoeff x N k

/-- `p` is the first place of the largest absolute value. -/
def IsPeak (a : ℕ → ℝ) (N p : Nat) : Prop := p < N ∧ (∀ i < N, |a i| ≤ |a p|) ∧ ∀ i < p, |a i| < |a p|

end Spec

theorem Spec.IsPeak.unique {a : ℕ → ℝ} {N p q : Nat} (hp : IsPeak a N p) (hq : IsPeak a N q) : p = q := by
  rcases lt_trichotomy p q with h | h | h
  · exact absurd (hq.2.2 p h) (not_lt.2 (hp.2.1 q hq.1))
  · exact h
  · exact absurd (hp.2.2 q h) (not_lt.2 (hq.2.1 p hp.1))

theorem rotWord_lt (r n x : Nat) (hn : n ≤ r) (hx : x < 2 ^ r) : rotWord r n x < 2 ^ r := by
  have h1 : (x * 2 ^ n) % 2 ^ r = 2 ^ n * (x % 2 ^ (r - n)) := by
    conv_lhs => rw [show r = n + (r - n) by omega, pow_add, mul_comm x, Nat.mul_mod_mul_left]
  have h2 : x / 2 ^ (r - n) < 2 ^ n := by
    rw [Nat.div_lt_iff_lt_mul (by positivity), ← pow_add, show n + (r - n) = r by omega]; exact hx
  have h3 : x % 2 ^ (r - n) < 2 ^ (r - n) := Nat.mod_lt _ (by positivity)
  rw [rotWord, h1]
  calc 2 ^ n * (x % 2 ^ (r - n)) + x / 2 ^ (r - n) < 2 ^ n * (x % 2 ^ (r - n) + 1) := by rw [mul_add]; omega
    _ ≤ 2 ^ n * 2 ^ (r - n) := Nat.mul_le_mul_left _ h3
    _ = 2 ^ r := by rw [← pow_add]; congr 1; omega

theorem rotWord_or (r n x : Nat) (hn : n ≤ r) (hx : x < 2 ^ r) :
    rotWord r n x = ((x * 2 ^ n) ||| (x / 2 ^ (r - n))) % 2 ^ r := by
  have h1 : (x * 2 ^ n) % 2 ^ r = 2 ^ n * (x % 2 ^ (r - n)) := by
    conv_lhs => rw [show r = n + (r - n) by omega, pow_add, mul_comm x, Nat.mul_mod_mul_left]
  have h2 : x / 2 ^ (r - n) < 2 ^ n := by
    rw [Nat.div_lt_iff_lt_mul (by positivity), ← pow_add, show n + (r - n) = r by omega]; exact hx
  rw [← Nat.mod_eq_of_lt (rotWord_lt r n x hn hx), rotWord, h1, Nat.two_pow_add_eq_or_of_lt h2, ← h1, Nat.or_mod_two_pow,
    Nat.or_mod_two_pow, Nat.mod_mod]

/-- The macro `RotL` rotates, unless a shift count is out of range. -/
theorem rotL_spec (masked : Bool) (r n : Nat) (x : UInt) (hr0 : 0 < r) (hr : r ≤ 32) (hn : n ≤ r) (hm : masked = true ∨ r < 32)
    (hx : x.toNat < 2 ^ r) :
    ∃ y, rotL masked r (BitVec.ofNat 32 (2 ^ r - 1)) x n = .ok y ∧ y.toNat = rotWord r n x.toNat := by
  have hsub : (r + 2 ^ 32 - n) % 2 ^ 32 = r - n := by
    have : (2 : Nat) ^ 32 = 4294967296 := by norm_num
    omega
  have key : ∀ s t, (s = n ∨ (s = 0 ∧ n = r ∧ r = 32)) → (t = r - n ∨ (t = 0 ∧ n = 0 ∧ r = 32)) →
      (BitVec.ofNat 32 (2 ^ r - 1) &&& (x <<< s ||| x >>> t)).toNat = rotWord r n x.toNat := by
    intro s t hs ht
    rw [BitVec.toNat_and, BitVec.toNat_or, BitVec.toNat_shiftLeft, BitVec.toNat_ushiftRight, Nat.shiftRight_eq_div_pow,
      Nat.shiftLeft_eq, BitVec.toNat_ofNat]
    have hmask : (2 ^ r - 1) % 2 ^ 32 = 2 ^ r - 1 := by
      apply Nat.mod_eq_of_lt
      have : 2 ^ r ≤ 2 ^ 32 := Nat.pow_le_pow_right (by omega) hr
      have : 0 < 2 ^ r := by positivity
      omega
    rw [hmask, Nat.and_comm, Nat.and_two_pow_sub_one_eq_mod, Nat.or_mod_two_pow,
      Nat.mod_mod_of_dvd _ (pow_dvd_pow 2 hr), ← Nat.or_mod_two_pow]
    rcases hs with rfl | ⟨rfl, e1, e2⟩
    · rcases ht with rfl | ⟨rfl, e1, e2⟩
      · rw [rotWord_or r s _ hn hx]
      · subst e1
        rw [rotWord, Nat.pow_zero, Nat.mul_one, Nat.div_one, Nat.or_self, Nat.sub_zero, Nat.div_eq_of_lt hx, Nat.add_zero]
    · rcases ht with rfl | ⟨rfl, e3, e4⟩
      · subst e1
        rw [rotWord, Nat.pow_zero, Nat.mul_one, Nat.sub_self, Nat.pow_zero, Nat.div_one, Nat.or_self, Nat.mul_mod_left, Nat.zero_add,
          Nat.mod_eq_of_lt hx]
      · omega
  unfold rotL
  rw [hsub]
  cases masked with
  | true =>
    refine ⟨_, rfl, key _ _ ?_ ?_⟩ <;> omega
  | false =>
    have hr' : r < 32 := by simpa using hm
    refine ⟨BitVec.ofNat 32 (2 ^ r - 1) &&& (x <<< n ||| x >>> (r - n)), ?_, key n (r - n) (.inl rfl) (.inl rfl)⟩
    simp only [shlM, shrM, Bool.false_eq_true, if_false, shl, shr, if_pos (show n < 32 by omega), if_pos (show r - n < 32 by omega),
      Res.bind_ok]

theorem Width.toNat_lt {r : Nat} {src : Src} (hw : Width r src) (k : Nat) : (src k).toNat < 2 ^ r := by
  refine Nat.lt_pow_two_of_testBit _ fun i hi => ?_
  rw [BitVec.testBit_toNat]
  exact hw k i hi

theorem dctRead_spec (masked : Bool) (r : Nat) (src : Src) (n len : Nat) (hr0 : 0 < r) (hr : r ≤ 32) (hn : n ≤ r)
    (hm : masked = true ∨ r < 32) (hw : Width r src) : ∀ (todo i pos : Nat) (input : List UInt), i + todo = len → input.length = len →
    ∃ input', dctRead masked r (BitVec.ofNat 32 (2 ^ r - 1)) src n todo i pos input = .ok input' ∧ input'.length = len ∧
      (∀ k < i, input'.getD k 0 = input.getD k 0) ∧
      ∀ k, i ≤ k → k < len → (input'.getD k 0).toNat = rotWord r n (src (pos + (k - i))).toNat := by
  intro todo
  induction todo with
  | zero => intro i pos input hi hl; exact ⟨input, rfl, hl, fun _ _ => rfl, fun k h1 h2 => by omega⟩
  | succ todo ih =>
    intro i pos input hi hl
    obtain ⟨y, h1, h2⟩ := rotL_spec masked r n (src pos) hr0 hr hn hm (hw.toNat_lt pos)
    obtain ⟨f, a, b, c, d⟩ := ih (i + 1) (pos + 1) (input.set i y) (by omega) (by simpa using hl)
    refine ⟨f, ?_, b, ?_, ?_⟩
    · rw [dctRead, wr, if_pos (by omega), Res.bind_ok, rd_dflt 0 (show i < (input.set i (src pos)).length by simp; omega), Res.bind_ok,
        getD_set _ _ _ _ (by omega), if_pos rfl, h1, Res.bind_ok, wr, if_pos (by simp; omega), Res.bind_ok, List.set_set, a]
    · intro k hk
      rw [c k (by omega), getD_set _ _ _ _ (by omega), if_neg (by omega)]
    · intro k hk hkl
      by_cases e : k = i
      · subst e
        rw [c k (by omega), getD_set _ _ _ _ (by omega), if_pos rfl, h2, Nat.sub_self, Nat.add_zero]
      · rw [d k (by omega) hkl, show pos + 1 + (k - (i + 1)) = pos + (k - i) by omega]

theorem dctPos_spec (a : ℕ → ℝ) (N : Nat) (dct : List ℝ) (hd : dct = (List.range N).map a) : ∀ (todo i pos : Nat) (mx : ℝ),
    i + todo = N → (∀ k < i, |a k| ≤ mx) → (i = 0 ∧ pos = 0 ∧ mx = 0 ∨ 0 < i ∧ pos < i ∧ mx = |a pos| ∧ ∀ k < pos, |a k| < |a pos|) →
    0 < N → ∃ p, dctPos dct todo i pos mx = .ok p ∧ IsPeak a N p := by
  intro todo
  induction todo with
  | zero =>
    intro i pos mx hi h1 h2 hN
    rcases h2 with h | ⟨h3, h4, h5, h6⟩
    · omega
    · exact ⟨pos, rfl, by omega, fun k hk => h5 ▸ h1 k (by omega), h6⟩
  | succ todo ih =>
    intro i pos mx hi h1 h2 hN
    have hg : rd dct i = .ok (a i) := by
      subst hd
      rw [rd_ok (by simp; omega)]
      simp
    rw [dctPos, hg, Res.bind_ok]
    split
    · rename_i hlt
      refine ih (i + 1) i _ (by omega) (fun k hk => ?_) (.inr ⟨by omega, by omega, rfl, fun k hk => lt_of_le_of_lt (h1 k hk) hlt⟩) hN
      by_cases e : k = i
      · rw [e]
      · exact (h1 k (by omega)).trans hlt.le
    · rename_i hge
      refine ih (i + 1) pos mx (by omega) (fun k hk => ?_) (.inr ?_) hN
      · by_cases e : k = i
        · rw [e]; exact not_lt.1 hge
        · exact h1 k (by omega)
      · rcases h2 with ⟨e1, e2, e3⟩ | ⟨h3, h4, h5, h6⟩
        · subst e1 e2 e3
          refine ⟨by omega, by omega, ?_, by omega⟩
          exact le_antisymm (abs_nonneg _) (not_lt.1 hge)
        · exact ⟨by omega, by omega, h5, h6⟩

theorem dctPvalues_spec (cdf : ℝ → ℝ → ℝ) (a : ℕ → ℝ) (N : Nat) (dct : List ℝ) (hd : dct = (List.range N).map a) (sd : ℝ) (j M : Nat)
    (hM : (j + 1) * N ≤ M) : ∀ (todo i : Nat) (pv : List ℝ), i + todo = N → pv.length = M →
    ∃ pv', dctPvalues cdf dct sd N j todo i pv = .ok pv' ∧ pv'.length = M ∧
      (∀ k, (k < j * N + i ∨ (j + 1) * N ≤ k) → pv'.getD k 0 = pv.getD k 0) ∧
      ∀ k, i ≤ k → k < N → pv'.getD (j * N + k) 0 = cdf (0 - a k / sd) 1 := by
  intro todo
  induction todo with
  | zero => intro i pv hi hl; exact ⟨pv, rfl, hl, fun _ _ => rfl, fun k h1 h2 => by omega⟩
  | succ todo ih =>
    intro i pv hi hl
    have hg : rd dct i = .ok (a i) := by
      subst hd
      rw [rd_ok (by simp; omega)]
      simp
    have hjN : (j + 1) * N = j * N + N := by ring
    obtain ⟨f, h1, h2, h3, h4⟩ := ih (i + 1) (pv.set (j * N + i) (cdf (0 - a i / sd) 1)) (by omega) (by simpa using hl)
    refine ⟨f, ?_, h2, ?_, ?_⟩
    · rw [dctPvalues, hg, Res.bind_ok, wr, if_pos (by omega), Res.bind_ok]
      exact h1
    · intro k hk
      rw [h3 k (by omega), getD_set _ _ _ _ (by omega), if_neg (by omega)]
    · intro k hk hkN
      by_cases e : k = i
      · subst e
        rw [h3 _ (.inl (by omega)), getD_set _ _ _ _ (by omega), if_pos rfl]
      · exact h4 k (by omega) hkN

theorem quarter_le (n j : Nat) (hn : 12 ≤ n) (hj : j < n) : j / (n / 4) ≤ 4 := by
  have : j < (4 + 1) * (n / 4) := by omega
  have := (Nat.div_lt_iff_lt_mul (show 0 < n / 4 by omega)).2 this
  omega

/-- One pass of the main loop up to the adjusted coefficients. -/
theorem dctSample_spec (masked : Bool) (r : Nat) (src : Src) (n len : Nat) (hr0 : 0 < r) (hr : r ≤ 32)
    (hm : masked = true ∨ r < 32) (hw : Width r src) (hlen0 : 0 < len) (hlen : (∃ e, len = 2 ^ e) ∨ len ≤ 4)
    (j : Nat) (hq : j / (n / 4) ≤ 4) (input : List UInt) (dct : List ℝ) (hi : input.length = len) (hd : dct.length = len) :
    ∃ input' dct', dctRead masked r (BitVec.ofNat 32 (2 ^ r - 1)) src (r / 4 * (j / (n / 4))) len 0 (j * len) input = .ok input' ∧
      input'.length = len ∧ fDCT2fft input' dct len = .ok dct' ∧ rd dct' 0 = .ok (dctCoeff (fun i => dctBlock r n len src j i) len 0) ∧
      wr dct' 0 ((dctCoeff (fun i => dctBlock r n len src j i) len 0 - len * (2 ^ (r - 1) - 0.5)) / Real.sqrt 2) =
        .ok ((List.range len).map (dctAdjusted r (fun i => dctBlock r n len src j i) len)) := by
  have hrot : r / 4 * (j / (n / 4)) ≤ r := by
    calc r / 4 * (j / (n / 4)) ≤ r / 4 * 4 := Nat.mul_le_mul_left _ hq
      _ ≤ r := by omega
  obtain ⟨f, h1, h2, -, h4⟩ := dctRead_spec masked r src (r / 4 * (j / (n / 4))) len hr0 hr hrot hm hw len 0 (j * len) input (by omega) hi
  have hb : ∀ k, dctCoeff (fun i => (f.getD i 0).toNat) len k = dctCoeff (fun i => dctBlock r n len src j i) len k := by
    intro k
    unfold dctCoeff
    refine Finset.sum_congr rfl fun i hi => ?_
    show ((f.getD i 0).toNat : ℝ) * _ = (dctBlock r n len src j i : ℝ) * _
    rw [h4 i (by omega) (Finset.mem_range.1 hi), dctBlock, Nat.sub_zero]
  have ht := (C72_transform f dct len (by omega) hd).1 hlen
  have e : (List.range len).map (dctCoeff (fun i => ((f.getD i 0).toNat : ℝ)) len) =
      (List.range len).map (dctCoeff (fun i => (dctBlock r n len src j i : ℝ)) len) := List.map_congr_left fun k _ => hb k
  rw [e] at ht
  refine ⟨f, _, h1, h2, ht, ?_, ?_⟩
  · rw [rd_ok (by simp; omega)]
    simp
  · rw [wr, if_pos (by simp; omega)]
    congr 1
    apply List.ext_getElem
    · simp
    · intro k h1 h2
      rw [List.getElem_set, List.getElem_map, List.getElem_map, List.getElem_range, dctAdjusted]
      have hp : (2 : ℝ) ^ r = 2 * 2 ^ (r - 1) := by rw [← pow_succ']; congr 1; omega
      by_cases hk : k = 0
      · subst hk
        rw [if_pos rfl, if_pos rfl, hp]
        congr 2
        ring
      · rw [if_neg (by omega), if_neg hk]

theorem rot_step (r n j : Nat) (hn : 4 ≤ n) (rot : Nat) (hrot : rot = r / 4 * ((j - 1) / (n / 4))) :
    (if j ≠ 0 then (if n / 4 = 0 then .ub else if j % (n / 4) = 0 then .ok (rot + r / 4) else .ok rot) else .ok rot : Res Nat) =
      .ok (r / 4 * (j / (n / 4))) := by
  by_cases h0 : j = 0
  · subst h0
    rw [if_neg (by simp), hrot, Nat.zero_sub]
  · obtain ⟨k, rfl⟩ := Nat.exists_eq_succ_of_ne_zero h0
    rw [if_pos h0, if_neg (show ¬ n / 4 = 0 by omega)]
    rw [Nat.succ_sub_one] at hrot
    have := @Nat.succ_div k (n / 4)
    rw [Nat.succ_eq_add_one, this]
    split
    · rename_i hd
      rw [if_pos (Nat.dvd_of_mod_eq_zero hd), hrot, Nat.mul_add, Nat.mul_one]
    · rename_i hd
      rw [if_neg (fun h => hd (Nat.mod_eq_zero_of_dvd h)), hrot, Nat.add_zero]

section
variable (cdf gammaQ : ℝ → ℝ → ℝ) (masked : Bool) (r : Nat) (src : Src) (len n : Nat) (hr0 : 0 < r) (hr : r ≤ 32)
  (hm : masked = true ∨ r < 32) (hw : Width r src) (hlen0 : 0 < len) (hlen : (∃ e, len = 2 ^ e) ∨ len ≤ 4) (hn : 12 ≤ n)
include hr0 hr hm hw hlen0 hlen hn

theorem dctLoop_peaks (sd : ℝ) (pv : List ℝ) : ∀ (todo j rot : Nat) (input : List UInt) (dct : List ℝ) (counts l : List Nat),
    j + todo = n → rot = r / 4 * ((j - 1) / (n / 4)) → input.length = len → dct.length = len → l.length = j →
    (∀ k < j, IsPeak (dctAdjusted r (fun i => dctBlock r n len src k i) len) len (l.getD k 0)) → Tallied (List.replicate len 0) l counts →
    ∃ l' counts', dctLoop cdf masked r (BitVec.ofNat 32 (2 ^ r - 1)) src false len n (len * (2 ^ (r - 1) - 0.5)) sd todo j rot input dct
      counts pv = .ok (counts', pv) ∧ l'.length = n ∧
      (∀ k < n, IsPeak (dctAdjusted r (fun i => dctBlock r n len src k i) len) len (l'.getD k 0)) ∧
      Tallied (List.replicate len 0) l' counts' := by
  intro todo
  induction todo with
  | zero =>
    intro j rot input dct counts l hj _ _ _ hl hp ht
    obtain rfl : j = n := by omega
    exact ⟨l, counts, rfl, hl, hp, ht⟩
  | succ todo ih =>
    intro j rot input dct counts l hj hrot hi hd hl hp ht
    obtain ⟨f, d, h1, h2, h3, h4, h5⟩ := dctSample_spec masked r src n len hr0 hr hm hw hlen0 hlen j (quarter_le n j hn (by omega)) input dct hi hd
    obtain ⟨p, h6, h7⟩ := dctPos_spec (dctAdjusted r (fun i => dctBlock r n len src j i) len) len _ rfl len 0 0 0 (by omega)
      (fun k hk => absurd hk (by omega)) (.inl ⟨rfl, rfl, rfl⟩) hlen0
    obtain ⟨c, h8, h9⟩ := ht.bump (i := p) (by simpa using h7.1)
    obtain ⟨l', c', e1, e2, e3, e4⟩ := ih (j + 1) (r / 4 * (j / (n / 4))) f
      ((List.range len).map (dctAdjusted r (fun i => dctBlock r n len src j i) len)) c (l ++ [p]) (by omega) rfl h2 (by simp) (by simp [hl])
      (by
        intro k hk
        by_cases hkj : k = j
        · subst hkj
          rw [List.getD_eq_getElem _ _ (by simp [hl]), List.getElem_append_right (by omega)]
          simpa [hl] using h7
        · have := hp k (by omega)
          rwa [List.getD_append _ _ _ _ (by omega)]) h9
    refine ⟨l', c', ?_, e2, e3, e4⟩
    rw [dctLoop, rot_step r n j (by omega) rot hrot]
    simp only [Res.bind_ok, h1, h3, h4, h5, Bool.false_eq_true, if_false, h6, h8]
    exact e1

theorem dctLoop_pvalues (sd : ℝ) (counts : List Nat) : ∀ (todo j rot : Nat) (input : List UInt) (dct pv : List ℝ),
    j + todo = n → rot = r / 4 * ((j - 1) / (n / 4)) → input.length = len → dct.length = len → pv.length = n * len →
    (∀ k < j, ∀ i < len, pv.getD (k * len + i) 0 = cdf (0 - dctAdjusted r (fun i => dctBlock r n len src k i) len i / sd) 1) →
    ∃ pv', dctLoop cdf masked r (BitVec.ofNat 32 (2 ^ r - 1)) src true len n (len * (2 ^ (r - 1) - 0.5)) sd todo j rot input dct
      counts pv = .ok (counts, pv') ∧ pv'.length = n * len ∧
      ∀ k < n, ∀ i < len, pv'.getD (k * len + i) 0 = cdf (0 - dctAdjusted r (fun i => dctBlock r n len src k i) len i / sd) 1 := by
  intro todo
  induction todo with
  | zero =>
    intro j rot input dct pv hj _ _ _ hl hp
    obtain rfl : j = n := by omega
    exact ⟨pv, rfl, hl, hp⟩
  | succ todo ih =>
    intro j rot input dct pv hj hrot hi hd hl hp
    obtain ⟨f, d, h1, h2, h3, h4, h5⟩ := dctSample_spec masked r src n len hr0 hr hm hw hlen0 hlen j (quarter_le n j hn (by omega)) input dct hi hd
    obtain ⟨q, h6, h7, h8, h9⟩ := dctPvalues_spec cdf (dctAdjusted r (fun i => dctBlock r n len src j i) len) len _ rfl sd j (n * len)
      (Nat.mul_le_mul_right _ (by omega)) len 0 pv (by omega) hl
    obtain ⟨pv', e1, e2, e3⟩ := ih (j + 1) (r / 4 * (j / (n / 4))) f
      ((List.range len).map (dctAdjusted r (fun i => dctBlock r n len src j i) len)) q (by omega) rfl h2 (by simp) h7
      (by
        intro k hk i hi
        by_cases hkj : k = j
        · subst hkj; exact h9 i (by omega) hi
        · rw [h8 _ (.inl ?_)]
          · exact hp k (by omega) i hi
          · have : (k + 1) * len ≤ j * len := Nat.mul_le_mul_right _ (by omega)
            rw [Nat.add_mul] at this
            omega)
    refine ⟨pv', ?_, e2, e3⟩
    rw [dctLoop, rot_step r n j (by omega) rot hrot]
    simp only [Res.bind_ok, h1, h3, h4, h5, if_true, h6]
    exact e1
end

theorem pearsonLoop_spec (o : List ℝ) (e : List ℝ) (N : Nat) (ho : o.length = N) (he : e.length = N) : ∀ (todo k : Nat) (c : ℝ), k + todo = N →
    pearsonLoop o e todo k c = .ok (c + ∑ t ∈ Finset.range todo, (o.getD (k + t) 0 - e.getD (k + t) 0) ^ 2 / e.getD (k + t) 0) := by
  intro todo
  induction todo with
  | zero => intro k c _; rw [pearsonLoop, Finset.sum_range_zero, add_zero]
  | succ todo ih =>
    intro k c hk
    rw [pearsonLoop, rd_dflt 0 (show k < o.length by omega), Res.bind_ok, rd_dflt 0 (show k < e.length by omega), Res.bind_ok,
      ih (k + 1) _ (by omega), Finset.sum_range_succ', add_assoc, add_comm (_ / _) (Finset.sum _ _), add_zero, sq]
    congr 3
    refine Finset.sum_congr rfl fun t _ => ?_
    rw [show k + 1 + t = k + (t + 1) by omega]

/-- **C73.** With more than `5·len` blocks (and at least 12), for a generator of `r` bits whose shifts are in range (`r < 32`, or a
machine that takes shift counts modulo 32), `dab_dct` returns the chi-square p-value with `len - 1` degrees of freedom of the counts
of the places at which the adjusted cosine coefficients of the rotated blocks have their first largest absolute value, against equal
expectations. -/
theorem C73_dct (cdf gammaQ : ℝ → ℝ → ℝ) (kstest : List ℝ → ℝ) (masked : Bool) (r : Nat) (src : Src) (ntuple len n : Nat)
    (input0 : List UInt) (dct0 pv0 : List ℝ) (hr0 : 0 < r) (hr : r ≤ 32) (hm : masked = true ∨ r < 32) (hw : Width r src)
    (hnt : len = if ntuple = 0 then 256 else ntuple) (hlen : (∃ e, len = 2 ^ e) ∨ len ≤ 4) (hn : 12 ≤ n) (h5 : 5 * len < n)
    (hi : input0.length = len) (hd : dct0.length = len) :
    ∃ peak : ℕ → ℕ, (∀ j < n, IsPeak (dctAdjusted r (fun i => dctBlock r n len src j i) len) len (peak j)) ∧
      dabDct cdf gammaQ kstest masked r (BitVec.ofNat 32 (2 ^ r - 1)) src ntuple n input0 dct0 pv0 =
        .ok (gammaQ ((len - 1 : ℝ) / 2) ((∑ k ∈ Finset.range len,
          ((((Finset.range n).filter fun j => peak j = k).card : ℝ) - n / len) ^ 2 / (n / len)) / 2)) := by
  have hlen0 : 0 < len := by
    rw [hnt]; split <;> omega
  obtain ⟨l, c, h1, h2, h3, h4⟩ := dctLoop_peaks cdf masked r src len n hr0 hr hm hw hlen0 hlen hn (Real.sqrt ((1 / 6) * len) * 2 ^ (r - 1)) pv0
    n 0 0 input0 dct0 (List.replicate len 0) [] (by omega) (by simp) hi hd rfl (by omega) (Tallied.nil _)
  have hl : l = (List.range n).map fun j => l.getD j 0 := by
    apply List.ext_getElem
    · simp [h2]
    · intro k a b
      rw [List.getElem_map, List.getElem_range, List.getD_eq_getElem _ _ a]
  refine ⟨fun j => l.getD j 0, h3, ?_⟩
  unfold dabDct
  rw [← hnt]
  simp only [if_pos h5, h1, Res.bind_ok, Bool.false_eq_true, if_false]
  rw [chisqPearson, pearsonLoop_spec _ _ len (by simp [h4.len]) (by simp) len 0 0 (by omega), Res.bind_ok, zero_add]
  congr 3
  refine Finset.sum_congr rfl fun k hk => ?_
  have hk := Finset.mem_range.1 hk
  have e1 : (List.replicate len ((n : ℝ) / len)).getD (0 + k) 0 = n / len := by
    rw [Nat.zero_add, List.getD_eq_getElem _ _ (by simpa using hk), List.getElem_replicate]
  have e2 : (c.map (Nat.cast : ℕ → ℝ)).getD (0 + k) 0 = (((Finset.range n).filter fun j => l.getD j 0 = k).card : ℝ) := by
    have hc : k < c.length := by rw [h4.len]; simpa using hk
    have h6 := h4.get k
    rw [Nat.zero_add, List.getD_eq_getElem _ _ (by simpa using hc), List.getElem_map, ← List.getD_eq_getElem _ 0 hc, h6]
    rw [List.getD_eq_getElem _ _ (by simpa using hk), List.getElem_replicate, Nat.zero_add]
    congr 1
    conv_lhs => rw [hl]
    rw [List.count, List.countP_map, List.countP_eq_length_filter, Finset.card_def]
    rfl
  rw [e1, e2]

/-- **C73.** With at most `5·len` blocks (and at least 12) the function returns the KS p-value of the `n·len` values
`Φ(-a_{j,i}/sd)`, `a_{j,i}` the adjusted coefficients, `sd = √(len/6)·2^(r-1)`. -/
theorem C73_fallback (cdf gammaQ : ℝ → ℝ → ℝ) (kstest : List ℝ → ℝ) (masked : Bool) (r : Nat) (src : Src) (ntuple len n : Nat)
    (input0 : List UInt) (dct0 pv0 : List ℝ) (hr0 : 0 < r) (hr : r ≤ 32) (hm : masked = true ∨ r < 32) (hw : Width r src)
    (hnt : len = if ntuple = 0 then 256 else ntuple) (hlen : (∃ e, len = 2 ^ e) ∨ len ≤ 4) (hn : 12 ≤ n) (h5 : n ≤ 5 * len)
    (hi : input0.length = len) (hd : dct0.length = len) (hp : pv0.length = n * len) :
    dabDct cdf gammaQ kstest masked r (BitVec.ofNat 32 (2 ^ r - 1)) src ntuple n input0 dct0 pv0 =
      .ok (kstest ((List.range (n * len)).map fun t => cdf (-(dctAdjusted r (fun i => dctBlock r n len src (t / len) i) len (t % len) /
        (Real.sqrt (len / 6) * 2 ^ (r - 1)))) 1)) := by
  have hlen0 : 0 < len := by
    rw [hnt]; split <;> omega
  obtain ⟨pv, h1, h2, h3⟩ := dctLoop_pvalues cdf masked r src len n hr0 hr hm hw hlen0 hlen hn (Real.sqrt ((1 / 6) * len) * 2 ^ (r - 1))
    (List.replicate len 0) n 0 0 input0 dct0 pv0 (by omega) (by simp) hi hd hp (by omega)
  unfold dabDct
  rw [← hnt]
  simp only [if_neg (show ¬ 5 * len < n by omega), h1, Res.bind_ok, if_true]
  congr 2
  apply List.ext_getElem
  · simp [h2]
  · intro t a b
    rw [List.getElem_map, List.getElem_range, ← List.getD_eq_getElem _ 0 a]
    have ht : t / len < n := by
      rw [Nat.div_lt_iff_lt_mul hlen0]; omega
    have := h3 (t / len) ht (t % len) (Nat.mod_lt _ hlen0)
    rw [show t / len * len + t % len = t by rw [Nat.mul_comm]; exact Nat.div_add_mod t len] at this
    rw [this, zero_sub, show (1 / 6 * (len : ℝ)) = len / 6 by ring]

/-- **C73, failure.** Strictly by the language, a 32-bit generator makes the first rotation (by 0 places) shift by 32, which is
undefined. -/
theorem C73_shift_undefined (cdf gammaQ : ℝ → ℝ → ℝ) (kstest : List ℝ → ℝ) (mask : UInt) (src : Src) (ntuple n : Nat) (input0 : List UInt)
    (dct0 pv0 : List ℝ) (hi : input0.length = if ntuple = 0 then 256 else ntuple) (hn : 0 < n) :
    dabDct cdf gammaQ kstest false 32 mask src ntuple n input0 dct0 pv0 = .ub := by
  unfold dabDct
  obtain ⟨m, rfl⟩ := Nat.exists_eq_succ_of_ne_zero (show n ≠ 0 by omega)
  rw [← hi]
  have hl : 0 < input0.length := by rw [hi]; split <;> omega
  obtain ⟨k, hk⟩ := Nat.exists_eq_succ_of_ne_zero (show input0.length ≠ 0 by omega)
  have : dctRead false 32 mask src 0 input0.length 0 (0 * input0.length) input0 = .ub := by
    rw [hk, dctRead, wr, if_pos (by omega), Res.bind_ok, rd_ok (by simp; omega), Res.bind_ok]
    rfl
  simp only [dctLoop, ne_eq, not_true_eq_false, if_false, Res.bind_ok, this, Res.bind_ub]

/-- **C73, failure.** With two or three blocks the second pass divides by `tsamples / 4 = 0`. -/
theorem C73_few_blocks (cdf gammaQ : ℝ → ℝ → ℝ) (kstest : List ℝ → ℝ) (masked : Bool) (r : Nat) (src : Src) (ntuple len n : Nat)
    (input0 : List UInt) (dct0 pv0 : List ℝ) (hr0 : 0 < r) (hr : r ≤ 32) (hm : masked = true ∨ r < 32) (hw : Width r src)
    (hnt : len = if ntuple = 0 then 256 else ntuple) (hlen : (∃ e, len = 2 ^ e) ∨ len ≤ 4) (hn : n = 2 ∨ n = 3)
    (hi : input0.length = len) (hd : dct0.length = len) (hp : pv0.length = n * len) :
    dabDct cdf gammaQ kstest masked r (BitVec.ofNat 32 (2 ^ r - 1)) src ntuple n input0 dct0 pv0 = .ub := by
  have hlen0 : 0 < len := by
    rw [hnt]; split <;> omega
  obtain ⟨f, d, h1, h2, h3, h4, h5⟩ := dctSample_spec masked r src n len hr0 hr hm hw hlen0 hlen 0 (by simp) input0 dct0 hi hd
  obtain ⟨q, h6, -⟩ := dctPvalues_spec cdf (dctAdjusted r (fun i => dctBlock r n len src 0 i) len) len _ rfl
    (Real.sqrt ((1 / 6) * len) * 2 ^ (r - 1)) 0 (n * len) (Nat.mul_le_mul_right _ (by omega)) len 0 pv0 (by omega) hp
  obtain ⟨m, hm'⟩ : ∃ m, n = m + 1 + 1 := ⟨n - 2, by omega⟩
  have hq : n / 4 = 0 := by omega
  rw [Nat.zero_div, Nat.mul_zero] at h1
  unfold dabDct
  rw [← hnt]
  simp only [if_neg (show ¬ 5 * len < n by omega)]
  have : ∀ (k : Nat) (c : List Nat), dctLoop cdf masked r (BitVec.ofNat 32 (2 ^ r - 1)) src true len n (len * (2 ^ (r - 1) - 0.5))
      (Real.sqrt ((1 / 6) * len) * 2 ^ (r - 1)) (k + 1 + 1) 0 0 input0 dct0 c pv0 = .ub := by
    intro k c
    rw [dctLoop]
    simp only [ne_eq, not_true_eq_false, if_false, Res.bind_ok, h1, h3, h4, h5, if_true, h6]
    rw [dctLoop]
    simp only [hq, if_true, Nat.zero_add, ne_eq, Nat.one_ne_zero, not_false_eq_true, Res.bind_ub]
  have h := this m (List.replicate len 0)
  rw [← hm'] at h
  rw [h, Res.bind_ub]

/-- A word of 8 bits rotated by 2: `10110001` becomes `11000110`. -/
example : rotWord 8 2 0b10110001 = 0b11000110 := by decide

/-- The blocks of 16 samples are rotated by 0, 2, 4 and 6 places for 8-bit words, four blocks each. -/
example : (List.range 16).map (fun j => 8 / 4 * (j / (16 / 4))) = [0, 0, 0, 0, 2, 2, 2, 2, 4, 4, 4, 4, 6, 6, 6, 6] := by decide

/-- With 13 blocks the last one is rotated by the whole width. -/
example : 8 / 4 * (12 / (13 / 4)) = 8 := by decide

/-- Twelve blocks of two words of the constant generator 255: every block peaks at place 0, so that the statistic is 12. -/
example (cdf gammaQ : ℝ → ℝ → ℝ) (kstest : List ℝ → ℝ) :
    dabDct cdf gammaQ kstest false 8 (BitVec.ofNat 32 (2 ^ 8 - 1)) (fun _ => 255) 2 12 [0, 0] [0, 0] [] = .ok (gammaQ (1 / 2) 6) := by
  obtain ⟨p, h1, h2⟩ := C73_dct cdf gammaQ kstest false 8 (fun _ => 255) 2 2 12 [0, 0] [0, 0] [] (by omega) (by omega) (.inr (by omega))
    (fun _ i hi => by
      show (BitVec.ofNat 32 255).getLsbD i = false
      rw [BitVec.getLsbD_ofNat]
      simp only [Bool.and_eq_false_iff, decide_eq_false_iff_not]
      exact .inr (Nat.testBit_lt_two_pow (lt_of_lt_of_le (by norm_num) (Nat.pow_le_pow_right (by omega) hi)))) rfl (.inr (by omega))
    (by omega) (by omega) rfl rfl
  have hb : ∀ j < 12, ∀ i, dctBlock 8 12 2 (fun _ => 255) j i = 255 := by
    intro j hj i
    rw [dctBlock]
    revert j
    decide
  have hp : ∀ j ∈ Finset.range 12, p j = 0 := by
    intro j hj
    have hj := Finset.mem_range.1 hj
    refine (h1 j hj).unique ⟨by omega, ?_, by omega⟩
    have h255 : ∀ k, dctAdjusted 8 (fun i => (dctBlock 8 12 2 (fun _ => 255) j i : ℝ)) 2 k = dctAdjusted 8 (fun _ => 255) 2 k := by
      intro k
      have : (fun i => (dctBlock 8 12 2 (fun _ => 255) j i : ℝ)) = fun _ => 255 := by
        funext i; rw [hb j hj i]; norm_num
      rw [this]
    intro i hi
    rw [h255, h255]
    have hi : i = 0 ∨ i = 1 := by omega
    rcases hi with rfl | rfl
    · exact le_refl _
    · have : dctAdjusted 8 (fun _ => (255 : ℝ)) 2 1 = 0 := by
        rw [dctAdjusted, if_neg (by omega), dctCoeff, ← Finset.mul_sum]
        have := cos_sum_zero 2 1 (by omega) (by omega) (by omega)
        push_cast at this
        rw [Nat.cast_one, Nat.cast_ofNat, this, mul_zero]
      rw [this, abs_zero]
      exact abs_nonneg _
  rw [h2]
  have hc : ∀ k, ((Finset.range 12).filter fun j => p j = k) = (Finset.range 12).filter fun _ => 0 = k :=
    fun k => Finset.filter_congr fun j hj => by rw [hp j hj]
  simp only [hc]
  norm_num [Finset.sum_range_succ]

/-! ### C74: the normalisation -/

section
open ProbabilityTheory MeasureTheory
variable {Ω : Type*} [MeasurableSpace Ω] {μ : Measure Ω} [IsProbabilityMeasure μ] {W : ℕ → Ω → ℝ}

/-- Draws with mean `(2^r - 1)/2` and variance `(4^r - 1)/12` that are pairwise uncorrelated. -/
structure Spec.WhiteWords (r : Nat) (μ : Measure Ω) (W : ℕ → Ω → ℝ) : Prop where
  l2 : ∀ i, MemLp (W i) 2 μ
  mean : ∀ i, μ[W i] = (2 ^ r - 1) / 2
  cov : ∀ i j, cov[W i, W j; μ] = if i = j then (4 ^ r - 1) / 12 else 0

theorem dctCoeff_memLp {r : Nat} (h : Spec.WhiteWords r μ W) (N k : Nat) : MemLp (fun ω => dctCoeff (fun i => W i ω) N k) 2 μ := by
  unfold dctCoeff
  exact memLp_finsetSum _ fun i _ => (h.l2 i).mul_const _

theorem dctCoeff_cov {r : Nat} (h : Spec.WhiteWords r μ W) (N k l : Nat) (hk : k < N) (hl : l < N) :
    cov[fun ω => dctCoeff (fun i => W i ω) N k, fun ω => dctCoeff (fun i => W i ω) N l; μ] =
      (4 ^ r - 1) / 12 * if k = l then (if k = 0 then (N : ℝ) else N / 2) else 0 := by
  unfold dctCoeff
  rw [covariance_fun_sum_fun_sum' (fun i _ => (h.l2 i).mul_const _) (fun i _ => (h.l2 i).mul_const _), ← dct_orthogonal N k l hk hl,
    Finset.mul_sum]
  refine Finset.sum_congr rfl fun i hi => ?_
  simp_rw [covariance_mul_const_left, covariance_mul_const_right, h.cov]
  rw [Finset.sum_eq_single i]
  · rw [if_pos rfl]; ring
  · intro j _ hj; rw [if_neg (Ne.symm hj)]; ring
  · intro hc; exact absurd hi hc

/-- **C74.** For uniform independent `r`-bit words the adjusted coefficients have mean 0, are uncorrelated and have the same
variance `N(4^r - 1)/24`, the constant one included: the division by `√2` marked "Experimental + guess" in the source is right. -/
theorem C74_moments {r : Nat} (h : Spec.WhiteWords r μ W) (N k l : Nat) (hk : k < N) (hl : l < N) :
    μ[fun ω => dctAdjusted r (fun i => W i ω) N k] = 0 ∧
    cov[fun ω => dctAdjusted r (fun i => W i ω) N k, fun ω => dctAdjusted r (fun i => W i ω) N l; μ] =
      if k = l then (N : ℝ) * (4 ^ r - 1) / 24 else 0 := by
  have hs : Real.sqrt 2 * Real.sqrt 2 = 2 := Real.mul_self_sqrt (by norm_num)
  have hs0 : Real.sqrt 2 ≠ 0 := by positivity
  have hmem := dctCoeff_memLp h N
  have hint : ∀ k, Integrable (fun ω => dctCoeff (fun i => W i ω) N k) μ := fun k => (hmem k).integrable (by norm_num)
  have hmean : ∀ k, k < N → μ[fun ω => dctCoeff (fun i => W i ω) N k] = if k = 0 then (N : ℝ) * ((2 ^ r - 1) / 2) else 0 := by
    intro k hk
    unfold dctCoeff
    rw [integral_finset_sum _ fun i _ => ((h.l2 i).integrable (by norm_num)).mul_const _]
    simp_rw [integral_mul_const, h.mean]
    rw [← Finset.mul_sum]
    split
    · subst k; simp; ring
    · rename_i hk0
      have := cos_sum_zero N k (by omega) (by omega) (by omega)
      push_cast at this
      rw [this, mul_zero]
  have e0 : ∀ k, k ≠ 0 → (fun ω => dctAdjusted r (fun i => W i ω) N k) = fun ω => dctCoeff (fun i => W i ω) N k := by
    intro k hk; funext ω; rw [dctAdjusted, if_neg hk]
  have e1 : (fun ω => dctAdjusted r (fun i => W i ω) N 0) =
      fun ω => (dctCoeff (fun i => W i ω) N 0 - N * ((2 ^ r - 1) / 2)) * (Real.sqrt 2)⁻¹ := by
    funext ω; rw [dctAdjusted, if_pos rfl, div_eq_mul_inv]
  constructor
  · by_cases h0 : k = 0
    · subst h0
      rw [e1, integral_mul_const, integral_sub (hint 0) (integrable_const _), hmean 0 hk, if_pos rfl, integral_const]
      simp
    · rw [e0 k h0, hmean k hk, if_neg h0]
  · have hc := dctCoeff_cov h N k l hk hl
    by_cases h0 : k = 0
    · subst h0
      by_cases l0 : l = 0
      · subst l0
        rw [e1, covariance_mul_const_left, covariance_mul_const_right, covariance_sub_const_left (hint 0),
          covariance_sub_const_right (hint 0), hc, if_pos rfl, if_pos rfl, if_pos rfl, mul_assoc, ← mul_inv, hs]
        ring
      · rw [e1, e0 l l0, covariance_mul_const_left, covariance_sub_const_left (hint 0), hc, if_neg (Ne.symm l0), if_neg (Ne.symm l0)]
        ring
    · by_cases l0 : l = 0
      · subst l0
        rw [e1, e0 k h0, covariance_mul_const_right, covariance_sub_const_right (hint 0), hc, if_neg h0, if_neg h0]
        ring
      · rw [e0 k h0, e0 l l0, hc]
        split
        · ring
        · ring

/-- **C74.** The standard deviation the fallback method divides by is the true one up to the factor `√(1 - 4^{-r})`. -/
theorem C74_sd (r N : Nat) (hr : 0 < r) : (Real.sqrt (N / 6) * 2 ^ (r - 1)) ^ 2 * (1 - (4 ^ r)⁻¹) = N * (4 ^ r - 1) / 24 := by
  have h1 : ((2 : ℝ) ^ (r - 1)) ^ 2 * 4 = 4 ^ r := by
    obtain ⟨s, rfl⟩ := Nat.exists_eq_succ_of_ne_zero (show r ≠ 0 by omega)
    rw [Nat.succ_sub_one, ← pow_mul, mul_comm s 2, pow_mul]
    norm_num [pow_succ]
  have h4 : (4 : ℝ) ^ r ≠ 0 := by positivity
  rw [mul_pow, Real.sq_sqrt (by positivity)]
  field_simp
  rw [← h1]
  ring

theorem sum_range_real (M : Nat) : ∑ k ∈ Finset.range M, (k : ℝ) = M * (M - 1) / 2 := by
  induction M with
  | zero => simp
  | succ M ih => rw [Finset.sum_range_succ, ih]; push_cast; ring

theorem sum_range_sq (M : Nat) : ∑ k ∈ Finset.range M, (k : ℝ) * k = M * (M - 1) * (2 * M - 1) / 6 := by
  induction M with
  | zero => simp
  | succ M ih => rw [Finset.sum_range_succ, ih]; push_cast; ring

/-- **C74**, the hypothesis: independent words that take each value below `2^r` with the same probability are such draws. -/
theorem C74_uniform_words (r : Nat) (V : ℕ → Ω → Fin (2 ^ r)) (hm : ∀ i, Measurable (V i))
    (hlaw : ∀ i, μ.map (V i) = ((2 : ENNReal) ^ r)⁻¹ • Measure.count) (hind : iIndepFun V μ) :
    Spec.WhiteWords r μ (fun i ω => ((V i ω : ℕ) : ℝ)) := by
  have hl : ∀ i, MemLp (fun ω => ((V i ω : ℕ) : ℝ)) 2 μ := by
    intro i
    refine MemLp.of_bound ((measurable_of_finite (fun v : Fin (2 ^ r) => ((v : ℕ) : ℝ))).comp (hm i)).aestronglyMeasurable (2 ^ r) ?_
    refine Filter.Eventually.of_forall fun ω => ?_
    rw [Real.norm_eq_abs, abs_of_nonneg (Nat.cast_nonneg _)]
    exact_mod_cast (V i ω).2.le
  have hint : ∀ i (f : Fin (2 ^ r) → ℝ), ∫ ω, f (V i ω) ∂μ = (∑ k ∈ Finset.range (2 ^ r), if h : k < 2 ^ r then f ⟨k, h⟩ else 0) / 2 ^ r := by
    intro i f
    rw [← integral_map (hm i).aemeasurable (measurable_of_finite f).aestronglyMeasurable, hlaw i, integral_smul_measure, integral_count,
      Finset.sum_fin_eq_sum_range, ENNReal.toReal_inv, ENNReal.toReal_pow]
    rw [smul_eq_mul, div_eq_mul_inv, mul_comm]
    rfl
  have hp : (2 : ℝ) ^ r ≠ 0 := by positivity
  have h44 : (4 : ℝ) ^ r = 2 ^ r * 2 ^ r := by rw [← mul_pow]; norm_num
  have hmean : ∀ i, μ[fun ω => ((V i ω : ℕ) : ℝ)] = (2 ^ r - 1) / 2 := by
    intro i
    rw [hint i fun v => ((v : ℕ) : ℝ), Finset.sum_congr rfl (g := fun k : ℕ => (k : ℝ)) (fun k hk => dif_pos (Finset.mem_range.1 hk)),
      sum_range_real]
    push_cast
    field_simp
  refine ⟨hl, hmean, ?_⟩
  intro i j
  by_cases hij : i = j
  · subst hij
    rw [if_pos rfl, covariance_eq_sub (hl i) (hl i), hmean]
    have : ∫ ω, ((fun ω => ((V i ω : ℕ) : ℝ)) * fun ω => ((V i ω : ℕ) : ℝ)) ω ∂μ = (2 ^ r - 1) * (2 * 2 ^ r - 1) / 6 := by
      have h := hint i fun v => ((v : ℕ) : ℝ) * (v : ℕ)
      rw [Finset.sum_congr rfl (g := fun k : ℕ => (k : ℝ) * k) (fun k hk => dif_pos (Finset.mem_range.1 hk)), sum_range_sq] at h
      refine h.trans ?_
      push_cast
      field_simp
    rw [this, h44]
    ring
  · rw [if_neg hij]
    exact ((hind.indepFun hij).comp (measurable_of_finite (fun v : Fin (2 ^ r) => ((v : ℕ) : ℝ)))
      (measurable_of_finite (fun v : Fin (2 ^ r) => ((v : ℕ) : ℝ)))).covariance_eq_zero (hl i) (hl j)
end

open ProbabilityTheory MeasureTheory in
/-- Such words exist for every width: the coordinates of a product of uniform measures. -/
example (r : Nat) : ∃ (Ω : Type) (_ : MeasurableSpace Ω) (μ : Measure Ω) (_ : IsProbabilityMeasure μ) (W : ℕ → Ω → ℝ),
    Spec.WhiteWords r μ W := by
  have hp : IsProbabilityMeasure (((2 : ENNReal) ^ r)⁻¹ • (Measure.count : Measure (Fin (2 ^ r)))) := ⟨by
    rw [Measure.smul_apply, Measure.count_apply MeasurableSet.univ, Set.encard_univ, ENat.card_eq_coe_fintype_card, Fintype.card_fin,
      smul_eq_mul]
    push_cast
    exact ENNReal.inv_mul_cancel (by positivity) (by finiteness)⟩
  refine ⟨ℕ → Fin (2 ^ r), inferInstance, Measure.infinitePi (fun _ : ℕ => ((2 : ENNReal) ^ r)⁻¹ • Measure.count), inferInstance, _,
    C74_uniform_words r (fun i ω => ω i) (fun i => measurable_pi_apply i) ?_ ?_⟩
  · intro i
    exact Measure.infinitePi_map_eval (fun _ : ℕ => ((2 : ENNReal) ^ r)⁻¹ • (Measure.count : Measure (Fin (2 ^ r)))) i
  · exact iIndepFun_infinitePi (P := fun _ : ℕ => ((2 : ENNReal) ^ r)⁻¹ • (Measure.count : Measure (Fin (2 ^ r)))) (X := fun _ x => x)
      (fun i => measurable_id)

end Dh
