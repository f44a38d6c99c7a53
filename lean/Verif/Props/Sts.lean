import Verif.Model.Sts
import Verif.Proof.Popcount
import Verif.Proof.Tally
import Verif.Proof.Bits2
/-
C38, C39, C40: the counting parts of the STS tests.
-/
set_option linter.unusedSimpArgs false
namespace Dh.Spec

/-- Number of ones of a word. -/
def popcount (x : UInt) : Nat := (List.range 32).countP (fun i => x.getLsbD i)

/-- The pattern `v` of `m` bits stands at position `t` of the cyclic string of 32-bit words. -/
def occurs (ws : List UInt) (m v t : Nat) : Bool :=
  (List.range m).all fun i => msbStream ws (t + i) == v.testBit (m - 1 - i)

end Dh.Spec

namespace Dh
open Spec

theorem ones_countP : ∀ (k x : Nat), ones k x = (List.range k).countP (fun i => x.testBit i) := by
  intro k
  induction k with
  | zero => intro x; rfl
  | succ k ih =>
    intro x
    rw [ones, ih, List.range_succ_eq_map, List.countP_cons, List.countP_map]
    have h : ((fun i => x.testBit i) ∘ Nat.succ) = fun i => (x / 2).testBit i := by
      funext i; simp [Nat.testBit_succ]
    rw [h, Nat.testBit_zero]
    by_cases h2 : x % 2 = 1
    · simp [h2]; omega
    · simp [show x % 2 = 0 by omega]

/-- **C38.** The bit trick returns the number of ones of the word. -/
theorem C38_popcount (x : UInt) : (monobitCount x).toNat = popcount x := by
  have hs := swar x.toNat x.isLt
  rw [ones_countP] at hs
  have hx := x.isLt
  show (monobitCount x).toNat = (List.range 32).countP (fun i => x.toNat.testBit i)
  rw [← hs]
  simp only [monobitCount, BitVec.toNat_and, BitVec.toNat_add, BitVec.toNat_ushiftRight, Nat.shiftRight_eq_div_pow,
    show (0x33333333#32).toNat = 0x33333333 from rfl, show (0x0f0f0f0f#32).toNat = 0x0f0f0f0f from rfl,
    show (0x3f#32).toNat = 0x3f from rfl]
  have h1 : (x - ((x >>> 1) &&& 0x55555555#32)).toNat = x.toNat - ((x.toNat / 2) &&& 0x55555555) := by
    have hle : ((x.toNat / 2) &&& 0x55555555) ≤ x.toNat := Nat.le_trans Nat.and_le_left (Nat.div_le_self _ _)
    rw [BitVec.toNat_sub, BitVec.toNat_and, BitVec.toNat_ushiftRight, Nat.shiftRight_eq_div_pow, Nat.pow_one,
      show (0x55555555#32).toNat = 0x55555555 from rfl]
    omega
  rw [h1]
  have hn1 : x.toNat - ((x.toNat / 2) &&& 0x55555555) < 2 ^ 32 := by omega
  generalize x.toNat - ((x.toNat / 2) &&& 0x55555555) = n1 at hn1 ⊢
  have a1 : (n1 &&& 0x33333333) ≤ 0x33333333 := Nat.and_le_right
  have a2 : (n1 / 2 ^ 2 &&& 0x33333333) ≤ 0x33333333 := Nat.and_le_right
  rw [show (2 : Nat) ^ 2 = 4 from rfl] at a2 ⊢
  rw [Nat.mod_eq_of_lt (show (n1 &&& 0x33333333) + (n1 / 4 &&& 0x33333333) < 2 ^ 32 by omega)]
  have hn2 : (n1 &&& 0x33333333) + (n1 / 4 &&& 0x33333333) ≤ 0x66666666 := by omega
  generalize (n1 &&& 0x33333333) + (n1 / 4 &&& 0x33333333) = n2 at hn2 ⊢
  rw [show (2 : Nat) ^ 4 = 16 from rfl, Nat.mod_eq_of_lt (show n2 + n2 / 16 < 2 ^ 32 by omega)]
  have hn3 : (n2 + n2 / 16) &&& 0x0f0f0f0f ≤ 0x0f0f0f0f := Nat.and_le_right
  generalize (n2 + n2 / 16) &&& 0x0f0f0f0f = n3 at hn3 ⊢
  rw [show (2 : Nat) ^ 8 = 256 from rfl, show (2 : Nat) ^ 16 = 65536 from rfl,
    Nat.mod_eq_of_lt (show n3 + n3 / 256 < 2 ^ 32 by omega)]
  rw [Nat.mod_eq_of_lt (show n3 + n3 / 256 + (n3 + n3 / 256) / 65536 < 2 ^ 32 by omega)]

example : (monobitCount 0xF0F00001).toNat = 9 := by decide

theorem monobitSum_eq (src : Src) : ∀ (todo i x : Nat),
    monobitSum src todo i x = x + ((List.range todo).map fun k => popcount (src (i + k))).sum := by
  intro todo
  induction todo with
  | zero => intro i x; simp [monobitSum]
  | succ todo ih =>
    intro i x
    rw [monobitSum, ih, C38_popcount, List.range_succ_eq_map, List.map_cons, List.sum_cons, List.map_map]
    have : ((fun k => popcount (src (i + k))) ∘ Nat.succ) = fun k => popcount (src (i + 1 + k)) := by
      funext k; simp [Nat.add_assoc, Nat.add_comm 1 k]
    rw [this]; simp only [Nat.add_zero]; omega

theorem popcount_width (r : Nat) (hr : r ≤ 32) (x : UInt) (hx : x.toNat < 2 ^ r) :
    popcount x = (List.range r).countP (fun i => x.getLsbD i) := by
  have e : List.range 32 = List.range (r + (32 - r)) := by rw [show r + (32 - r) = 32 by omega]
  rw [popcount, e, List.range_add, List.countP_append, List.countP_map]
  have : List.countP ((fun i => x.getLsbD i) ∘ fun x => r + x) (List.range (32 - r)) = 0 := by
    apply List.countP_eq_zero.2
    intro i _
    have : x.toNat < 2 ^ (r + i) := Nat.lt_of_lt_of_le hx (Nat.pow_le_pow_right (by omega) (by omega))
    have : x.getLsbD (r + i) = false := Nat.testBit_lt_two_pow this
    simp [this]
  rw [this, Nat.add_zero]

/-- Ones in the first `n` values of an `r`-bit generator, position by position. -/
theorem stream_ones (r : Nat) (hr0 : 0 < r) (hr : r ≤ 32) (src : Src) (hs : ∀ n, (src n).toNat < 2 ^ r) (n : Nat) :
    ((List.range n).map fun k => popcount (src k)).sum = (List.range (r * n)).countP (lsbStream r src) := by
  induction n with
  | zero => rfl
  | succ n ih =>
    rw [List.range_succ, List.map_append, List.sum_append, ih, Nat.mul_succ, List.range_add, List.countP_append,
      List.countP_map]
    simp only [List.map_cons, List.map_nil, List.sum_cons, List.sum_nil, Nat.add_zero]
    congr 1
    rw [popcount_width r hr _ (hs n)]
    apply List.countP_congr
    intro i hi
    rw [List.mem_range] at hi
    have h1 : (r * n + i) / r = n := by
      rw [Nat.mul_add_div hr0, Nat.div_eq_of_lt hi, Nat.add_zero]
    have h2 : (r * n + i) % r = i := by
      rw [Nat.mul_add_mod, Nat.mod_eq_of_lt hi]
    show ((src n).getLsbD i = true) ↔ (lsbStream r src (r * n + i) = true)
    rw [lsbStream, h1, h2]

/-- **C38.** The statistic of `sts_monobit` is the number of ones minus the number of zeros among all
bits of the values drawn, for every generator width and every sample below 2^32 bits. -/
theorem C38_monobit (r : Nat) (hr0 : 0 < r) (hr : r ≤ 32) (src : Src) (hs : ∀ n, (src n).toNat < 2 ^ r) (n : Nat)
    (hn : r * n < 2 ^ 32) :
    stsMonobit r src n = ((List.range (r * n)).countP (fun k => lsbStream r src k) : Int)
      - ((List.range (r * n)).countP (fun k => !lsbStream r src k) : Int) := by
  have h1 : monobitSum src n 0 0 = (List.range (r * n)).countP (lsbStream r src) := by
    rw [monobitSum_eq, ← stream_ones r hr0 hr src hs n]; simp
  have h2 : (List.range (r * n)).countP (fun k => lsbStream r src k) + (List.range (r * n)).countP (fun k => !lsbStream r src k)
      = r * n := by
    have := List.length_eq_countP_add_countP (lsbStream r src) (l := List.range (r * n))
    rw [List.length_range] at this
    have e : (fun k => !lsbStream r src k) = fun a => decide ¬lsbStream r src a = true := by
      funext k; cases lsbStream r src k <;> rfl
    rw [e]; exact this.symm
  unfold stsMonobit
  have h1 : monobitSum src n 0 0 = (List.range (r * n)).countP (fun k => lsbStream r src k) := h1
  rw [h1, Nat.mod_eq_of_lt hn]
  omega

example : stsMonobit 4 (fun n => BitVec.ofNat 32 (n + 5)) 3 = 2 := by decide

/-! C39 -/

theorem countP_shift (f : Nat → Bool) (n : Nat) (h : f n = f 0) :
    (List.range n).countP (fun b => f (b + 1)) = (List.range n).countP f := by
  have h1 : (List.range (n + 1)).countP f = (if f 0 then 1 else 0) + (List.range n).countP (fun b => f (b + 1)) := by
    rw [List.range_succ_eq_map, List.countP_cons, List.countP_map]
    have : (f ∘ Nat.succ) = fun b => f (b + 1) := rfl
    rw [this]; omega
  have h2 : (List.range (n + 1)).countP f = (List.range n).countP f + (if f n then 1 else 0) := by
    rw [List.range_succ, List.countP_append]; simp
  rw [h] at h2
  omega

theorem cyclicBit_period (r : Nat) (hr : 0 < r) (bs : List UInt) (k : Nat) :
    cyclicBit r bs (k + r * bs.length) = cyclicBit r bs k := by
  unfold cyclicBit
  rw [Nat.add_mul_div_left _ _ hr, Nat.add_mod_right, Nat.add_mul_mod_self_left]

theorem two_bits (v : UInt) (a b : Bool) (h : ∀ i < 32, v.getLsbD i = (decide (i < 2) && if i = 0 then a else b)) :
    v.toNat = a.toNat + 2 * b.toNat := by
  have : ∀ (w : UInt), (∀ i < 32, w.getLsbD i = (decide (i < 2) && if i = 0 then a else b)) → v = w := by
    intro w hw
    apply BitVec.eq_of_getLsbD_eq
    intro i hi; rw [h i hi, hw i hi]
  cases a <;> cases b
  · rw [this 0 (by decide)]; rfl
  · rw [this 2 (by decide)]; rfl
  · rw [this 1 (by decide)]; rfl
  · rw [this 3 (by decide)]; rfl

theorem runsLoop_spec (r : Nat) (ws : List UInt) (hr : 0 < r) (hr32 : r ≤ 32)
    (hw : ∀ x ∈ ws, ∀ i, r ≤ i → x.getLsbD i = false) : ∀ (todo b : Nat) (c : RunsC), b + todo ≤ ws.length * r →
    ∃ d, runsLoop r ws todo b c = .ok d ∧
      d.x = c.x + (List.range todo).countP (fun i => cyclicBit r ws (b + i) != cyclicBit r ws (b + i + 1)) ∧
      d.pones = c.pones + (List.range todo).countP (fun i => cyclicBit r ws (b + i + 1)) := by
  intro todo
  induction todo with
  | zero => intro b c _; exact ⟨c, rfl, rfl, rfl⟩
  | succ todo ih =>
    intro b c hb
    obtain ⟨v, h1, h2⟩ := getBitNtuple_spec r ws 2 b hr hr32 hw (by omega) (by omega)
    have hv := two_bits v (cyclicBit r ws b) (cyclicBit r ws (b + 1)) (fun i hi => by
      rw [h2 i]
      by_cases hi2 : i < 2
      · rcases (by omega : i = 0 ∨ i = 1) with h | h <;> subst h <;> simp
      · simp [hi2])
    rw [runsLoop, h1, Res.bind_ok, hv]
    have hcx : ∀ f : Nat → Bool, (List.range (todo + 1)).countP f = (if f 0 then 1 else 0) + (List.range todo).countP (fun i => f (i + 1)) := by
      intro f
      rw [List.range_succ_eq_map, List.countP_cons, List.countP_map]
      have : (f ∘ Nat.succ) = fun b => f (b + 1) := rfl
      rw [this]; omega
    rw [hcx, hcx]
    simp only [Nat.add_zero]
    have e1 : (fun i => cyclicBit r ws (b + (i + 1)) != cyclicBit r ws (b + (i + 1) + 1))
        = fun i => cyclicBit r ws (b + 1 + i) != cyclicBit r ws (b + 1 + i + 1) := by
      funext i; rw [show b + (i + 1) = b + 1 + i by omega]
    have e2 : (fun i => cyclicBit r ws (b + (i + 1) + 1)) = fun i => cyclicBit r ws (b + 1 + i + 1) := by
      funext i; rw [show b + (i + 1) = b + 1 + i by omega]
    rw [e1, e2]
    cases ha : cyclicBit r ws b <;> cases hb1 : cyclicBit r ws (b + 1)
    · obtain ⟨d, g1, g2, g3⟩ := ih (b + 1) { c with c00 := c.c00 + 1 } (by omega)
      exact ⟨d, g1, by rw [g2]; simp, by rw [g3]; simp⟩
    · obtain ⟨d, g1, g2, g3⟩ := ih (b + 1) { c with c10 := c.c10 + 1, x := c.x + 1, pones := c.pones + 1 } (by omega)
      exact ⟨d, g1, by rw [g2]; simp; omega, by rw [g3]; simp; omega⟩
    · obtain ⟨d, g1, g2, g3⟩ := ih (b + 1) { c with c01 := c.c01 + 1, x := c.x + 1 } (by omega)
      exact ⟨d, g1, by rw [g2]; simp; omega, by rw [g3]; simp⟩
    · obtain ⟨d, g1, g2, g3⟩ := ih (b + 1) { c with c11 := c.c11 + 1, pones := c.pones + 1 } (by omega)
      exact ⟨d, g1, by rw [g2]; simp, by rw [g3]; simp; omega⟩

/-- **C39.** `sts_runs` returns the number of positions of the cyclic bit string at which a bit differs
from its successor, together with the number of ones of the same string. -/
theorem C39_sts_runs (r : Nat) (ws : List UInt) (hr : 0 < r) (hr32 : r ≤ 32)
    (hw : ∀ x ∈ ws, ∀ i, r ≤ i → x.getLsbD i = false) :
    ∃ c, stsRuns r ws = .ok c ∧
      c.x = (List.range (r * ws.length)).countP (fun b => cyclicBit r ws b != cyclicBit r ws (b + 1)) ∧
      c.pones = (List.range (r * ws.length)).countP (fun b => cyclicBit r ws b) := by
  obtain ⟨d, h1, h2, h3⟩ := runsLoop_spec r ws hr hr32 hw (r * ws.length) 0 ⟨0, 0, 0, 0, 0, 0⟩ (by rw [Nat.mul_comm]; omega)
  refine ⟨d, h1, ?_, ?_⟩
  · rw [h2]; simp
  · rw [h3]
    have := countP_shift (cyclicBit r ws) (r * ws.length) (by
      have := cyclicBit_period r hr ws 0
      rw [Nat.zero_add] at this; exact this)
    simp only [Nat.zero_add]
    exact this

example : stsRuns 4 [0b1010, 0b0011] = .ok ⟨4, 4, 2, 2, 2, 2⟩ := by decide

/-! C40 -/

/-- The window examined at position `t`. -/
def winAt (buf : List UInt) (t : Nat) : UInt :=
  if t % 32 < 16 then buf.getD (t / 32) 0
  else (buf.getD (t / 32) 0 <<< 16) + (buf.getD (t / 32 + 1) 0 >>> 16)

/-- The value counted at position `t`. -/
def valAt (m : Nat) (mask : UInt) (buf : List UInt) (t : Nat) : Nat :=
  ((winAt buf t >>> (32 - m - t % 16)) &&& mask).toNat

theorem rd_eq_getD {α : Type} {a : List α} {i : Nat} (d : α) (h : i < a.length) : rd a i = .ok (a.getD i d) := by
  rw [rd_ok h]; simp [List.getD, h]

theorem serialLoop_spec (m : Nat) (hm : 0 < m) (hm16 : m ≤ 16) (mask : UInt) (buf : List UInt) (f0 : List Nat)
    (hf : ∀ t, valAt m mask buf t < f0.length) :
    ∀ (todo t j : Nat) (window : UInt) (l f : List Nat), t + todo ≤ 32 * (buf.length - 1) →
    j = (t + 31) / 32 → (t % 32 ≠ 0 → window = winAt buf t) → Tallied f0 l f →
    ∃ f', serialLoop m mask buf todo t j window f = .ok f' ∧
      Tallied f0 (l ++ (List.range todo).map fun i => valAt m mask buf (t + i)) f' := by
  intro todo
  induction todo with
  | zero => intro t j window l f _ _ _ ht; exact ⟨f, rfl, by simpa using ht⟩
  | succ todo ih =>
    intro t j window l f hle hj hwin ht
    have hstep : (if t % 32 = 0 then do
        let w ← rd buf j
        pure (w, j + 1)
      else pure (window, j) : Res (UInt × Nat)) = .ok (winAt buf t, t / 32 + 1) := by
      by_cases h0 : t % 32 = 0
      · rw [if_pos h0, rd_eq_getD 0 (show j < buf.length by omega), Res.bind_ok]
        have : j = t / 32 := by omega
        rw [this, winAt, if_pos (by omega)]; rfl
      · rw [if_neg h0, hwin h0, show j = t / 32 + 1 by omega]; rfl
    rw [serialLoop, hstep, Res.bind_ok]
    obtain ⟨f', hb, ht'⟩ := ht.bump (hf t)
    have hs : shr (winAt buf t) (32 - m - t % 16) = .ok (winAt buf t >>> (32 - m - t % 16)) := by
      rw [shr, if_pos (by omega)]
    simp only [hs, Res.bind_ok]
    rw [show bump f ((winAt buf t >>> (32 - m - t % 16)) &&& mask).toNat = .ok f' from hb, Res.bind_ok]
    have hw' : (if t % 16 = 15 then do
        let w ← rd buf (t / 32 + 1)
        pure ((winAt buf t <<< 16) + (w >>> 16))
      else pure (winAt buf t) : Res UInt) = .ok (if t % 16 = 15 then (winAt buf t <<< 16) + (buf.getD (t / 32 + 1) 0 >>> 16) else winAt buf t) := by
      by_cases h15 : t % 16 = 15
      · rw [if_pos h15, rd_eq_getD 0 (show t / 32 + 1 < buf.length by omega), Res.bind_ok, if_pos h15]; rfl
      · rw [if_neg h15, if_neg h15]; rfl
    rw [hw', Res.bind_ok]
    obtain ⟨f'', h1, h2⟩ := ih (t + 1) (t / 32 + 1) (if t % 16 = 15 then (winAt buf t <<< 16) + (buf.getD (t / 32 + 1) 0 >>> 16) else winAt buf t) _ f' (by omega) (by omega) (by
      intro hne
      by_cases h15 : t % 16 = 15
      · rw [if_pos h15, winAt, winAt, if_pos (by omega), if_neg (by omega), show (t + 1) / 32 = t / 32 by omega]
      · rw [if_neg h15, winAt, winAt, show (t + 1) / 32 = t / 32 by omega]
        by_cases h16 : t % 32 < 16
        · rw [if_pos h16, if_pos (by omega)]
        · rw [if_neg h16, if_neg (by omega)]) ht'
    refine ⟨f'', h1, ?_⟩
    rw [List.range_succ_eq_map, List.map_cons, List.map_map]
    have e : ((fun i => valAt m mask buf (t + i)) ∘ Nat.succ) = fun i => valAt m mask buf (t + 1 + i) := by
      funext i; simp [Nat.add_assoc, Nat.add_comm 1 i]
    rw [e]
    rw [List.append_assoc] at h2
    exact h2

theorem winAt_bit (buf : List UInt) (t p : Nat) (hp : t % 16 + p < 32) (ht : t % 32 % 16 = t % 16) :
    (winAt buf t).getLsbD (31 - (t % 16 + p)) =
      msb (buf.getD ((t + p) / 32) 0) ((t + p) % 32) := by
  unfold winAt msb
  rw [decide_eq_true (show (t + p) % 32 < 32 by omega), Bool.true_and]
  by_cases h16 : t % 32 < 16
  · rw [if_pos h16, show (t + p) / 32 = t / 32 by omega, show 31 - (t % 16 + p) = 31 - (t + p) % 32 by omega]
  · rw [if_neg h16, add_getLsbD_disjoint, BitVec.getLsbD_shiftLeft, BitVec.getLsbD_ushiftRight]
    · by_cases hq : t % 16 + p < 16
      · have h1 : (decide (31 - (t % 16 + p) < 16)) = false := decide_eq_false (by omega)
        have h2 : (decide (31 - (t % 16 + p) < 32)) = true := decide_eq_true (by omega)
        have h3 : (buf.getD (t / 32 + 1) 0).getLsbD (16 + (31 - (t % 16 + p))) = false :=
          BitVec.getLsbD_of_ge _ _ (by omega)
        rw [h1, h2, h3, show (t + p) / 32 = t / 32 by omega, show 31 - (t % 16 + p) - 16 = 31 - (t + p) % 32 by omega]
        simp
      · have h1 : (decide (31 - (t % 16 + p) < 16)) = true := decide_eq_true (by omega)
        rw [h1, show (t + p) / 32 = t / 32 + 1 by omega, show 16 + (31 - (t % 16 + p)) = 31 - (t + p) % 32 by omega]
        simp
    · intro j hj h
      rw [BitVec.getLsbD_shiftLeft] at h
      have : ¬ j < 16 := by intro h'; simp [h'] at h
      rw [BitVec.getLsbD_ushiftRight]
      exact BitVec.getLsbD_of_ge _ _ (by omega)

theorem mask_bit (m : Nat) (hm : m < 32) (i : Nat) (hi : i < 32) : ((1 : UInt) <<< m - 1).getLsbD i = decide (i < m) := by
  have h1 : 2 ^ m < 2 ^ 32 := Nat.pow_lt_pow_right (by omega) hm
  have h2 : 0 < 2 ^ m := Nat.two_pow_pos m
  have h : ((1 : UInt) <<< m - 1).toNat = 2 ^ m - 1 := by
    rw [BitVec.toNat_sub, BitVec.toNat_shiftLeft, show (1 : UInt).toNat = 1 from rfl, Nat.shiftLeft_eq, Nat.one_mul,
      Nat.mod_eq_of_lt h1]
    omega
  rw [BitVec.getLsbD, h, Nat.testBit_two_pow_sub_one]

theorem valAt_lt (m : Nat) (hm : m < 32) (buf : List UInt) (t : Nat) : valAt m ((1 : UInt) <<< m - 1) buf t < 2 ^ m := by
  have h2 : 0 < 2 ^ m := Nat.two_pow_pos m
  have h1 : 2 ^ m < 2 ^ 32 := Nat.pow_lt_pow_right (by omega) hm
  have h : ((1 : UInt) <<< m - 1).toNat = 2 ^ m - 1 := by
    rw [BitVec.toNat_sub, BitVec.toNat_shiftLeft, show (1 : UInt).toNat = 1 from rfl, Nat.shiftLeft_eq, Nat.one_mul,
      Nat.mod_eq_of_lt h1]
    omega
  rw [valAt, BitVec.toNat_and, h]
  exact Nat.lt_of_le_of_lt Nat.and_le_right (by omega)

theorem buf_bit (ws : List UInt) (h0 : 0 < ws.length) (k : Nat) (hk : k < 32 * ws.length + 32) :
    msb ((ws ++ [ws.getD 0 0]).getD (k / 32) 0) (k % 32) = msbStream ws k := by
  unfold msbStream
  have : (ws ++ [ws.getD 0 0]).getD (k / 32) 0 = ws.getD (k / 32 % ws.length) 0 := by
    by_cases h : k / 32 < ws.length
    · rw [Nat.mod_eq_of_lt h]; simp [List.getD, List.getElem?_append, h]
    · have : k / 32 = ws.length := by omega
      rw [this, Nat.mod_self]; simp [List.getD]
  rw [this]

theorem valAt_eq_iff (m : Nat) (hm : 0 < m) (hm16 : m ≤ 16) (ws : List UInt) (h0 : 0 < ws.length) (t : Nat)
    (ht : t < 32 * ws.length) (v : Nat) (hv : v < 2 ^ m) :
    valAt m ((1 : UInt) <<< m - 1) (ws ++ [ws.getD 0 0]) t = v ↔ occurs ws m v t = true := by
  have hbit : ∀ i < m, (valAt m ((1 : UInt) <<< m - 1) (ws ++ [ws.getD 0 0]) t).testBit (m - 1 - i) = msbStream ws (t + i) := by
    intro i hi
    show ((winAt _ t >>> (32 - m - t % 16)) &&& _).getLsbD (m - 1 - i) = _
    rw [BitVec.getLsbD_and, mask_bit m (by omega) _ (by omega), decide_eq_true (by omega), Bool.and_true,
      BitVec.getLsbD_ushiftRight, show 32 - m - t % 16 + (m - 1 - i) = 31 - (t % 16 + i) by omega,
      winAt_bit _ t i (by omega) (by omega), buf_bit ws h0 _ (by omega)]
  constructor
  · intro h
    unfold occurs
    rw [List.all_eq_true]
    intro i hi
    rw [List.mem_range] at hi
    rw [← hbit i hi, h]; simp
  · intro h
    unfold occurs at h
    rw [List.all_eq_true] at h
    apply Nat.eq_of_testBit_eq
    intro i
    by_cases hi : i < m
    · have h1 := hbit (m - 1 - i) (by omega)
      have h2 := h (m - 1 - i) (by rw [List.mem_range]; omega)
      rw [show m - 1 - (m - 1 - i) = i by omega] at h1 h2
      rw [h1]; simpa using h2
    · have hp : 2 ^ m ≤ 2 ^ i := Nat.pow_le_pow_right (by omega) (by omega)
      rw [Nat.testBit_lt_two_pow (Nat.lt_of_lt_of_le (valAt_lt m (by omega) _ t) hp),
        Nat.testBit_lt_two_pow (Nat.lt_of_lt_of_le hv hp)]

/-- **C40.** For every sample and every width `m` from 1 to 16 the frequency table of `sts_serial` holds,
for every `m`-bit pattern, the number of cyclic positions of the bit string where the pattern
stands, and the table sums to the number of bits. -/
theorem C40_sts_serial (ws : List UInt) (h0 : 0 < ws.length) (m : Nat) (hm : 0 < m) (hm16 : m ≤ 16) :
    ∃ f, stsSerial ws m = .ok f ∧ f.length = 2 ^ m ∧ f.sum = 32 * ws.length ∧
      ∀ v < 2 ^ m, f.getD v 0 = (List.range (32 * ws.length)).countP (fun t => occurs ws m v t) := by
  have hlen : (ws ++ [ws.getD 0 0]).length - 1 = ws.length := by simp
  obtain ⟨f, h1, h2⟩ := serialLoop_spec m hm hm16 ((1 : UInt) <<< m - 1) (ws ++ [ws.getD 0 0]) (List.replicate (2 ^ m) 0)
    (fun t => by rw [List.length_replicate]; exact valAt_lt m (by omega) _ t) (32 * ws.length) 0 0 0 [] _
    (by rw [hlen]; omega) (by omega) (fun h => absurd rfl h) (Tallied.nil _)
  refine ⟨f, ?_, ?_, ?_, ?_⟩
  · rw [stsSerial, rd_eq_getD 0 h0, Res.bind_ok, shl, if_pos (by omega), Res.bind_ok]
    exact h1
  · rw [h2.len, List.length_replicate]
  · rw [h2.sum]; simp
  · intro v hv
    rw [h2.get, List.nil_append, List.count, List.countP_map]
    have : (List.replicate (2 ^ m) 0).getD v 0 = 0 := by
      simp [List.getD, List.getElem?_replicate, hv]
    rw [this, Nat.zero_add]
    apply List.countP_congr
    intro t ht
    rw [List.mem_range] at ht
    have := valAt_eq_iff m hm hm16 ws h0 t ht v hv
    simp only [Function.comp_apply, Nat.zero_add, beq_iff_eq]
    exact this

example : stsSerial [0x80000001] 2 = .ok [29, 1, 1, 1] := by decide +kernel

end Dh
