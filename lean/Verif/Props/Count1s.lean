import Mathlib.Tactic.NormNum
import Mathlib.Data.List.Induction
import Mathlib.Tactic.IntervalCases
import Mathlib.Tactic.Ring
import Mathlib.Tactic.FieldSimp
import Verif.Model.Count1s
import Verif.Proof.NtupleUint
import Verif.Proof.Tally
/-
C33: the letters and words counted by the count-the-1s tests.
-/
set_option linter.unusedSimpArgs false
set_option maxRecDepth 10000
namespace Dh
namespace Spec

/-- Number of ones in a byte. -/
def byteOnes (b : Nat) : Nat := (List.range 8).countP (fun i => b.testBit i)

/-- Marsaglia's letter of a byte. -/
def letter (b : Nat) : Nat :=
  if byteOnes b ≤ 2 then 0 else if byteOnes b = 3 then 1 else if byteOnes b = 4 then 2
  else if byteOnes b = 5 then 3 else 4

/-- A string of letters read in base five, first letter most significant. -/
def base5 (ls : List Nat) : Nat := ls.foldl (fun a l => 5 * a + l) 0

/-- All strings of `n` bytes. -/
def byteStrings : Nat → List (List Nat)
  | 0 => [[]]
  | n + 1 => (byteStrings n).flatMap fun s => (List.range 256).map fun b => s ++ [b]

/-- Byte `k` of a stream of 32-bit words, least significant byte of each word first. -/
def streamByte (w : Nat → UInt) (k : Nat) : Nat := (w (k / 4)).toNat / 2 ^ (8 * (k % 4)) % 256

/-- The byte of a word that starts at bit `off`, cyclically. -/
def cyclicByte (x : UInt) (off : Nat) : Nat := (x.rotateRight off).toNat % 256

/-- The word made of letters `k, ..., k+n-1` of the stream. -/
def streamWord (w : Nat → UInt) (k n : Nat) : Nat :=
  base5 ((List.range n).map fun i => letter (streamByte w (k + i)))

/-- The word of sample `t` of the byte test: `n` letters, from `n` words, all at bit offset `t mod 32`. -/
def offsetWord (w : Nat → UInt) (t k n : Nat) : Nat :=
  base5 ((List.range n).map fun i => letter (cyclicByte (w (k + i)) (t % 32)))

end Spec
open Spec

/-- **C33.** Both tables map every byte to its letter. -/
theorem C33_letters : ∀ b < 256, b5s[b]? = some (letter b) ∧ b5b[b]? = some (letter b) := by
  decide +kernel

theorem C33_tables_length : b5s.length = 256 ∧ b5b.length = 256 := by decide

example : letter 0xA7 = 3 ∧ b5s[0xA7]? = some 3 := by decide

theorem letter_count : ∀ l < 5, (List.range 256).countP (fun b => letter b = l) =
    [37, 56, 70, 56, 37].getD l 0 := by decide +kernel

/-- **C33.** The letter probabilities are the exact proportions of bytes. -/
theorem C33_letter_probabilities (l : Nat) (h : l < 5) :
    c1sProb[l]? = some (((List.range 256).countP (fun b => letter b = l) : Nat) / 256 : ℚ) := by
  rw [letter_count l h]
  interval_cases l <;> norm_num [c1sProb]

theorem base5_append (ls : List Nat) (l : Nat) : base5 (ls ++ [l]) = 5 * base5 ls + l := by
  simp [base5]

theorem letter_lt (b : Nat) : letter b < 5 := by
  unfold letter; split_ifs <;> omega

theorem countP_flatMap {α β : Type} (p : β → Bool) (q : α → Bool) (f : α → List β) (c : Nat)
    (h1 : ∀ a, q a = true → (f a).countP p = c) (h0 : ∀ a, q a = false → (f a).countP p = 0) :
    ∀ l : List α, (l.flatMap f).countP p = l.countP q * c
  | [] => by simp
  | a :: l => by
    rw [List.flatMap_cons, List.countP_append, countP_flatMap p q f c h1 h0 l, List.countP_cons]
    cases hq : q a
    · rw [h0 a hq]; simp
    · rw [h1 a hq]; simp [Nat.add_mul]; omega

theorem strings_count (n i : Nat) :
    (byteStrings (n + 1)).countP (fun s => base5 (s.map letter) = i) =
      (byteStrings n).countP (fun s => base5 (s.map letter) = i / 5) *
        (List.range 256).countP (fun b => letter b = i % 5) := by
  rw [byteStrings]
  apply countP_flatMap
  · intro s hs
    rw [List.countP_map]
    apply List.countP_congr
    intro b _
    have := letter_lt b
    simp only [decide_eq_true_eq] at hs
    simp only [Function.comp_apply, List.map_append, List.map_cons, List.map_nil, base5_append,
      decide_eq_true_eq, hs]
    omega
  · intro s hs
    rw [List.countP_map, List.countP_eq_zero]
    intro b _
    have := letter_lt b
    simp only [decide_eq_false_iff_not] at hs
    simp only [Function.comp_apply, List.map_append, List.map_cons, List.map_nil, base5_append,
      decide_eq_true_eq]
    omega

theorem c1sExpLoop_eq : ∀ (n j : Nat) (y : ℚ), j < 5 ^ n →
    c1sExpLoop n j y = .ok (y * (((byteStrings n).countP (fun s => base5 (s.map letter) = j) : Nat) / 256 ^ n))
  | 0, j, y, h => by
    have : j = 0 := by omega
    subst this
    simp [c1sExpLoop, byteStrings, base5]
  | n + 1, j, y, h => by
    have h5 : j % 5 < 5 := Nat.mod_lt _ (by omega)
    have hj : j / 5 < 5 ^ n := by rw [Nat.pow_succ] at h; omega
    have hp : rd c1sProb (j % 5) = .ok (((List.range 256).countP (fun b => letter b = j % 5) : Nat) / 256 : ℚ) := by
      rw [rd, C33_letter_probabilities _ h5]
    rw [c1sExpLoop, hp, Res.bind_ok, c1sExpLoop_eq n _ _ hj, strings_count]
    congr 1
    push_cast
    rw [pow_succ]
    field_simp

/-- **C33.** The expected count of a word of `n` letters is the number of samples times the exact
proportion of strings of `n` bytes that spell it (used with `n = 4` and `n = 5`). -/
theorem C33_word_probabilities (n tsamples i : Nat) (h : i < 5 ^ n) :
    c1sExpected n tsamples i =
      .ok (tsamples * (((byteStrings n).countP (fun s => base5 (s.map letter) = i) : Nat) / 256 ^ n)) :=
  c1sExpLoop_eq n i _ h

theorem C33_byteStrings (n : Nat) (s : List Nat) :
    s ∈ byteStrings n ↔ s.length = n ∧ ∀ b ∈ s, b < 256 := by
  induction n generalizing s with
  | zero =>
    simp only [byteStrings, List.mem_singleton]
    constructor
    · rintro rfl; simp
    · rintro ⟨h, _⟩; exact List.length_eq_zero_iff.1 h
  | succ n ih =>
    simp only [byteStrings, List.mem_flatMap, List.mem_map, List.mem_range]
    constructor
    · rintro ⟨s', hs', b, hb, rfl⟩
      obtain ⟨h1, h2⟩ := (ih s').1 hs'
      refine ⟨by simp [h1], fun c hc => ?_⟩
      rcases List.mem_append.1 hc with hc | hc
      · exact h2 c hc
      · rw [List.mem_singleton.1 hc]; exact hb
    · rintro ⟨h1, h2⟩
      have hne : s ≠ [] := by rintro rfl; simp at h1
      refine ⟨s.dropLast, (ih _).2 ⟨by simp [h1], fun b hb => h2 b (List.dropLast_subset s hb)⟩,
        s.getLast hne, h2 _ (List.getLast_mem hne), List.dropLast_append_getLast hne⟩

example : c1sExpected 1 512 2 = .ok 140 := by
  rw [C33_word_probabilities 1 512 2 (by norm_num)]
  have : (byteStrings 1).countP (fun s => base5 (s.map letter) = 2) = 70 := by decide +kernel
  rw [this]; norm_num

/-- One letter of a word at bit offset `off`. -/
theorem byte_of (x : UInt) (off : Nat) (h : off < 32) :
    ∃ v, getBitNtupleFromWholeUint x 8 0x000000FF#32 off = .ok v ∧ v.toNat = cyclicByte x off := by
  obtain ⟨v, h1, h2⟩ := getBitNtupleFromWholeUint_spec x 0x000000FF#32 8 off (by omega) h
    (fun i => by
      by_cases hi : i < 32
      · revert i; decide
      · rw [BitVec.getLsbD_of_ge _ _ (by omega)]; symm; rw [decide_eq_false_iff_not]; omega)
  refine ⟨v, h1, ?_⟩
  apply Nat.eq_of_testBit_eq
  intro i
  rw [cyclicByte, show (256 : Nat) = 2 ^ 8 from rfl, Nat.testBit_mod_two_pow]
  rw [BitVec.testBit_toNat, BitVec.testBit_toNat, h2, BitVec.getLsbD_rotateRight]
  by_cases hi : i < 8
  · rw [decide_eq_true hi, Nat.mod_eq_of_lt h]
    simp only [Bool.true_and]
    by_cases h3 : i < 32 - off
    · rw [decide_eq_true h3, cond_true, Nat.mod_eq_of_lt (by omega)]
    · rw [decide_eq_false h3, cond_false, show (off + i) % 32 = i - (32 - off) from by omega, decide_eq_true (by omega), Bool.true_and]
  · rw [decide_eq_false hi]; simp

theorem cyclicByte_stream (w : Src) (k : Nat) : cyclicByte (w (k / 4)) (8 * (k % 4)) = streamByte w k := by
  rw [cyclicByte, streamByte]
  apply Nat.eq_of_testBit_eq
  intro i
  rw [show (256 : Nat) = 2 ^ 8 from rfl, Nat.testBit_mod_two_pow, Nat.testBit_mod_two_pow,
    ← Nat.shiftRight_eq_div_pow, Nat.testBit_shiftRight, BitVec.testBit_toNat, BitVec.testBit_toNat,
    BitVec.getLsbD_rotateRight]
  by_cases hi : i < 8
  · rw [Nat.mod_eq_of_lt (show 8 * (k % 4) < 32 by omega), decide_eq_true (show i < 32 - 8 * (k % 4) by omega), cond_true]
  · rw [decide_eq_false hi]; simp

theorem letter_step (table : List Nat) (ht : ∀ b < 256, table[b]? = some (letter b)) (x : UInt) (off idx : Nat)
    (h : off < 32) (hi : idx < 2 ^ 29) :
    c1sLetter table x off idx = .ok (5 * idx + letter (cyclicByte x off)) := by
  obtain ⟨v, h1, h2⟩ := byte_of x off h
  have hl := letter_lt (cyclicByte x off)
  have hb : cyclicByte x off < 256 := Nat.mod_lt _ (by omega)
  rw [c1sLetter, h1, Res.bind_ok, h2, rd, ht _ hb]
  simp only [Res.bind_ok, Res.pure_eq, lshift5]
  congr 1
  rw [Nat.mod_eq_of_lt (by omega)]; omega

theorem base5_lt (ls : List Nat) (h : ∀ l ∈ ls, l < 5) : base5 ls < 5 ^ ls.length := by
  induction ls using List.reverseRecOn with
  | nil => simp [base5]
  | append_singleton ls l ih =>
    rw [base5_append, List.length_append, List.length_singleton, pow_succ]
    have h1 := ih (fun l hl => h l (List.mem_append_left _ hl))
    have h2 := h l (by simp)
    omega

theorem base5_cons_mod (l : Nat) (ls : List Nat) :
    base5 (l :: ls) = l * 5 ^ ls.length + base5 ls := by
  induction ls using List.reverseRecOn with
  | nil => simp [base5]
  | append_singleton ls m ih =>
    rw [← List.cons_append, base5_append, base5_append, ih, List.length_append, List.length_singleton, pow_succ]
    ring

theorem streamWord_succ (w : Src) (k n : Nat) :
    streamWord w k (n + 1) = 5 * streamWord w k n + letter (streamByte w (k + n)) := by
  rw [streamWord, List.range_succ, List.map_append]; exact base5_append _ _

theorem streamWord_lt (w : Src) (k n : Nat) : streamWord w k n < 5 ^ n := by
  have := base5_lt ((List.range n).map fun i => letter (streamByte w (k + i))) (by
    intro l hl
    obtain ⟨i, _, rfl⟩ := List.mem_map.1 hl
    exact letter_lt _)
  simpa [streamWord] using this

theorem streamWord_tail (w : Src) (k n : Nat) : streamWord w k (n + 1) % 5 ^ n = streamWord w (k + 1) n := by
  have h1 : streamWord w k (n + 1) = letter (streamByte w k) * 5 ^ n + streamWord w (k + 1) n := by
    rw [streamWord, List.range_succ_eq_map, List.map_cons, base5_cons_mod]
    simp only [List.length_map, List.length_range, List.map_map, streamWord, Nat.add_zero]
    congr 3
    funext i
    simp only [Function.comp_apply, Nat.succ_eq_add_one]
    rw [show k + (i + 1) = k + 1 + i from by omega]
  rw [h1, Nat.add_comm, Nat.add_mul_mod_self_right, Nat.mod_eq_of_lt (streamWord_lt _ _ _)]

/-- What both tables hold after counting the words in `l4`, `l5`. -/
structure C1sTallied (l : List Nat) (f : C1sTab) : Prop where
  t4 : Tallied (List.replicate 625 0) (l.map (· % 625)) f.x4
  t5 : Tallied (List.replicate 3125 0) l f.x5

theorem C1sTallied.count {l : List Nat} {f : C1sTab} (t : C1sTallied l f) {i : Nat} (h : i < 3125) :
    ∃ f', c1sCount i f = .ok f' ∧ C1sTallied (l ++ [i]) f' := by
  obtain ⟨a, ha, ta⟩ := t.t4.bump (i := i % 625) (by rw [List.length_replicate]; omega)
  obtain ⟨b, hb, tb⟩ := t.t5.bump (i := i) (by rw [List.length_replicate]; omega)
  refine ⟨⟨a, b⟩, by rw [c1sCount, ha, Res.bind_ok, hb]; rfl, ?_, tb⟩
  rw [List.map_append]; exact ta

theorem streamLoop_spec (w : Src) : ∀ (todo t pos : Nat) (i : UInt) (boff idx : Nat) (f : C1sTab) (l : List Nat),
    (t % 4 = 0 → boff % 32 = 0 ∧ pos = t / 4 + 1) →
    (t % 4 ≠ 0 → boff = 8 * (t % 4) ∧ pos = t / 4 + 2 ∧ i = w (t / 4 + 1)) →
    idx < 3125 → idx % 625 = streamWord w t 4 → C1sTallied l f →
    ∃ f', c1sStreamLoop w todo pos i boff idx f = .ok f' ∧
      C1sTallied (l ++ (List.range todo).map fun k => streamWord w (t + k) 5) f'
  | 0, t, pos, i, boff, idx, f, l, h0, h1, hi, hw, tl => ⟨f, rfl, by simpa using tl⟩
  | todo + 1, t, pos, i, boff, idx, f, l, h0, h1, hi, hw, tl => by
    have hsel : (if boff % 32 = 0 then (w pos, pos + 1, 0) else (i, pos, boff)) =
        (w (t / 4 + 1), t / 4 + 2, 8 * (t % 4)) := by
      by_cases ht : t % 4 = 0
      · obtain ⟨a, b⟩ := h0 ht
        rw [if_pos a, b, ht]
      · obtain ⟨a, b, c⟩ := h1 ht
        rw [if_neg (by omega), a, b, c]
    have hb : letter (cyclicByte (w (t / 4 + 1)) (8 * (t % 4))) = letter (streamByte w (t + 4)) := by
      rw [← cyclicByte_stream w (t + 4)]
      rw [show (t + 4) / 4 = t / 4 + 1 from by omega, show (t + 4) % 4 = t % 4 from by omega]
    have hl := letter_lt (streamByte w (t + 4))
    have h5 : streamWord w t 5 < 3125 := streamWord_lt w t 5
    have hidx : (5 * idx + letter (streamByte w (t + 4))) % 3125 = streamWord w t 5 := by
      have e : streamWord w t 5 = 5 * streamWord w t 4 + letter (streamByte w (t + 4)) := streamWord_succ w t 4
      rw [e]
      rw [e] at h5
      rw [← hw] at h5 ⊢
      omega
    obtain ⟨f1, hf1, tl1⟩ := tl.count (i := streamWord w t 5) h5
    obtain ⟨f2, hf2, tl2⟩ := streamLoop_spec w todo (t + 1) (t / 4 + 2) (w (t / 4 + 1)) (8 * (t % 4) + 8)
      (streamWord w t 5) f1 _ (fun h => by omega) (fun h => ⟨by omega, by omega, by congr 1; omega⟩) h5
      (streamWord_tail w t 4) tl1
    refine ⟨f2, ?_, ?_⟩
    · rw [c1sStreamLoop]
      simp only [hsel]
      rw [letter_step b5s (fun b hb => (C33_letters b hb).1) _ _ _ (by omega) (by omega), Res.bind_ok, hb, hidx,
        Nat.mod_eq_of_lt h5, hf1, Res.bind_ok]
      exact hf2
    · rw [List.range_succ_eq_map, List.map_cons, List.map_map]
      rw [List.append_assoc, List.singleton_append] at tl2
      have : ((fun k => streamWord w (t + k) 5) ∘ Nat.succ) = fun k => streamWord w (t + 1 + k) 5 := by
        funext k; simp only [Function.comp_apply, Nat.succ_eq_add_one]; rw [show t + (k + 1) = t + 1 + k from by omega]
      rw [this]; exact tl2

theorem C1sTallied.init : C1sTallied [] ⟨List.replicate 625 0, List.replicate 3125 0⟩ :=
  ⟨Tallied.nil _, Tallied.nil _⟩

/-- The counts as numbers of samples. -/
theorem C1sTallied.counts {n : Nat} {g : Nat → Nat} {f : C1sTab} (t : C1sTallied ((List.range n).map g) f) :
    f.x4.length = 625 ∧ f.x5.length = 3125 ∧ f.x4.sum = n ∧ f.x5.sum = n ∧
    (∀ v, f.x4.getD v 0 = (List.range n).countP (fun t => g t % 625 = v)) ∧
    (∀ v, f.x5.getD v 0 = (List.range n).countP (fun t => g t = v)) := by
  refine ⟨by rw [t.t4.len, List.length_replicate], by rw [t.t5.len, List.length_replicate], ?_, ?_, ?_, ?_⟩
  · rw [t.t4.sum]; simp
  · rw [t.t5.sum]; simp
  · intro v
    rw [t.t4.get, List.count, List.countP_map, List.countP_map]
    have : (List.replicate 625 0).getD v 0 = 0 := by
      simp only [List.getD, List.getElem?_replicate]; split <;> rfl
    rw [this, Nat.zero_add]
    congr 1
  · intro v
    rw [t.t5.get, List.count, List.countP_map]
    have : (List.replicate 3125 0).getD v 0 = 0 := by
      simp only [List.getD, List.getElem?_replicate]; split <;> rfl
    rw [this, Nat.zero_add]
    congr 1

/-- **C33.** The stream test counts, for each of the `n` samples, the word made of the last five letters
and the word made of the last four letters of the byte stream; nothing else is counted. -/
theorem C33_stream_words (w : Src) (n : Nat) :
    ∃ f, c1sStream w n = .ok f ∧ f.x4.length = 625 ∧ f.x5.length = 3125 ∧ f.x4.sum = n ∧ f.x5.sum = n ∧
      (∀ v, f.x4.getD v 0 = (List.range n).countP (fun t => streamWord w (t + 1) 4 = v)) ∧
      (∀ v, f.x5.getD v 0 = (List.range n).countP (fun t => streamWord w t 5 = v)) := by
  have hb : ∀ k < 4, letter (cyclicByte (w 0) (8 * k)) = letter (streamByte w k) := by
    intro k hk
    rw [← cyclicByte_stream w k, show k / 4 = 0 from by omega, show k % 4 = k from by omega]
  have hb0 := hb 0 (by omega)
  have hb1 := hb 1 (by omega)
  have hb2 := hb 2 (by omega)
  have hb3 := hb 3 (by omega)
  have l0 := letter_lt (streamByte w 0)
  have l1 := letter_lt (streamByte w 1)
  have l2 := letter_lt (streamByte w 2)
  have l3 := letter_lt (streamByte w 3)
  have ht := fun b hb => (C33_letters b hb).1
  have e4 : streamWord w 0 4 = 5 * (5 * (5 * letter (streamByte w 0) + letter (streamByte w 1)) +
      letter (streamByte w 2)) + letter (streamByte w 3) := by
    rw [streamWord_succ, streamWord_succ, streamWord_succ, streamWord_succ]
    simp [streamWord, base5]
  have hs4 := streamWord_lt w 0 4
  obtain ⟨v, hv1, hv2⟩ := byte_of (w 0) 0 (by omega)
  have hlt : cyclicByte (w 0) 0 < 256 := Nat.mod_lt _ (by omega)
  obtain ⟨f, hf, tl⟩ := streamLoop_spec w n 0 1 (w 0) 0 (streamWord w 0 4) _ []
    (fun _ => ⟨rfl, rfl⟩) (fun h => absurd rfl h) (by omega) (Nat.mod_eq_of_lt hs4) C1sTallied.init
  simp only [List.nil_append, Nat.zero_add] at tl
  obtain ⟨c1, c2, c3, c4, c5, c6⟩ := tl.counts
  refine ⟨f, ?_, c1, c2, c3, c4, fun v => ?_, c6⟩
  · rw [c1sStream]
    simp only [hv1, Res.bind_ok, hv2]
    rw [rd, ht _ hlt]
    simp only [Res.bind_ok]
    rw [show (0 : Nat) = 8 * 0 from rfl, hb0, letter_step b5s ht _ 8 _ (by omega) (by omega), Res.bind_ok,
      show (8 : Nat) = 8 * 1 from rfl, hb1, letter_step b5s ht _ 16 _ (by omega) (by omega), Res.bind_ok,
      show (16 : Nat) = 8 * 2 from rfl, hb2, letter_step b5s ht _ 24 _ (by omega) (by omega), Res.bind_ok,
      show (24 : Nat) = 8 * 3 from rfl, hb3, ← e4]
    exact hf
  · rw [c5 v]
    apply List.countP_congr
    intro t _
    rw [show (625 : Nat) = 5 ^ 4 from rfl, streamWord_tail]

/-- Five words give 16 samples; the first word counted is made of bytes 0x0F 0x7F 0x00 0x1F 0xFF. -/
example : streamWord (fun k => if k = 0 then 0x1F007F0F else 0xFFFFFFFF) 0 5 =
    (((2 * 5 + 4) * 5 + 0) * 5 + 3) * 5 + 4 := by decide

theorem offsetWord_succ (w : Src) (t k n : Nat) :
    offsetWord w t k (n + 1) = 5 * offsetWord w t k n + letter (cyclicByte (w (k + n)) (t % 32)) := by
  rw [offsetWord, List.range_succ, List.map_append]; exact base5_append _ _

theorem offsetWord_lt (w : Src) (t k n : Nat) : offsetWord w t k n < 5 ^ n := by
  have := base5_lt ((List.range n).map fun i => letter (cyclicByte (w (k + i)) (t % 32))) (by
    intro l hl
    obtain ⟨i, _, rfl⟩ := List.mem_map.1 hl
    exact letter_lt _)
  simpa [offsetWord] using this

theorem offsetWord_tail (w : Src) (t k n : Nat) : offsetWord w t k (n + 1) % 5 ^ n = offsetWord w t (k + 1) n := by
  have h1 : offsetWord w t k (n + 1) = letter (cyclicByte (w k) (t % 32)) * 5 ^ n + offsetWord w t (k + 1) n := by
    rw [offsetWord, List.range_succ_eq_map, List.map_cons, base5_cons_mod]
    simp only [List.length_map, List.length_range, List.map_map, offsetWord, Nat.add_zero]
    congr 3
    funext i
    simp only [Function.comp_apply, Nat.succ_eq_add_one]
    rw [show k + (i + 1) = k + 1 + i from by omega]
  rw [h1, Nat.add_comm, Nat.add_mul_mod_self_right, Nat.mod_eq_of_lt (offsetWord_lt _ _ _ _)]

theorem byteWord_spec (w : Src) (t pos idx : Nat) (h : idx < 3125) :
    c1sByteWord w (t % 32) 5 pos idx = .ok (3125 * idx + offsetWord w t pos 5) := by
  have ht := fun b hb => (C33_letters b hb).2
  have hoff : t % 32 < 32 := Nat.mod_lt _ (by omega)
  have l0 := letter_lt (cyclicByte (w pos) (t % 32))
  have l1 := letter_lt (cyclicByte (w (pos + 1)) (t % 32))
  have l2 := letter_lt (cyclicByte (w (pos + 1 + 1)) (t % 32))
  have l3 := letter_lt (cyclicByte (w (pos + 1 + 1 + 1)) (t % 32))
  rw [c1sByteWord, letter_step b5b ht _ _ _ hoff (by omega), Res.bind_ok,
    c1sByteWord, letter_step b5b ht _ _ _ hoff (by omega), Res.bind_ok,
    c1sByteWord, letter_step b5b ht _ _ _ hoff (by omega), Res.bind_ok,
    c1sByteWord, letter_step b5b ht _ _ _ hoff (by omega), Res.bind_ok,
    c1sByteWord, letter_step b5b ht _ _ _ hoff (by omega), Res.bind_ok, c1sByteWord]
  congr 1
  rw [offsetWord_succ, offsetWord_succ, offsetWord_succ, offsetWord_succ, offsetWord_succ]
  have : offsetWord w t pos 0 = 0 := rfl
  rw [this]
  simp only [Nat.add_zero, Nat.add_assoc]
  ring

theorem byteLoop_spec (w : Src) : ∀ (todo t idx : Nat) (f : C1sTab) (l : List Nat),
    idx < 3125 → C1sTallied l f →
    ∃ f', c1sByteLoop w todo t (5 * t) idx f = .ok f' ∧
      C1sTallied (l ++ (List.range todo).map fun k => offsetWord w (t + k) (5 * (t + k)) 5) f'
  | 0, t, idx, f, l, hi, tl => ⟨f, rfl, by simpa using tl⟩
  | todo + 1, t, idx, f, l, hi, tl => by
    have h5 : offsetWord w t (5 * t) 5 < 3125 := offsetWord_lt w t (5 * t) 5
    obtain ⟨f1, hf1, tl1⟩ := tl.count (i := offsetWord w t (5 * t) 5) h5
    obtain ⟨f2, hf2, tl2⟩ := byteLoop_spec w todo (t + 1) (offsetWord w t (5 * t) 5) f1 _ h5 tl1
    have hm : (3125 * idx + offsetWord w t (5 * t) 5) % 3125 = offsetWord w t (5 * t) 5 := by
      rw [Nat.mul_add_mod, Nat.mod_eq_of_lt h5]
    refine ⟨f2, ?_, ?_⟩
    · rw [c1sByteLoop]
      simp only
      rw [byteWord_spec w t _ _ hi, Res.bind_ok, hm, hf1, Res.bind_ok]
      exact hf2
    · rw [List.range_succ_eq_map, List.map_cons, List.map_map]
      rw [List.append_assoc, List.singleton_append] at tl2
      have : ((fun k => offsetWord w (t + k) (5 * (t + k)) 5) ∘ Nat.succ) =
          fun k => offsetWord w (t + 1 + k) (5 * (t + 1 + k)) 5 := by
        funext k; simp only [Function.comp_apply, Nat.succ_eq_add_one]; rw [show t + (k + 1) = t + 1 + k from by omega]
      rw [this]; exact tl2

/-- **C33.** The byte test draws five words per sample, takes the byte at bit offset `t mod 32` of each,
and counts the word of the five letters and the word of the last four. -/
theorem C33_byte_words (w : Src) (n : Nat) :
    ∃ f, c1sByte w n = .ok f ∧ f.x4.length = 625 ∧ f.x5.length = 3125 ∧ f.x4.sum = n ∧ f.x5.sum = n ∧
      (∀ v, f.x4.getD v 0 = (List.range n).countP (fun t => offsetWord w t (5 * t + 1) 4 = v)) ∧
      (∀ v, f.x5.getD v 0 = (List.range n).countP (fun t => offsetWord w t (5 * t) 5 = v)) := by
  obtain ⟨f, hf, tl⟩ := byteLoop_spec w n 0 0 _ [] (by omega) C1sTallied.init
  simp only [List.nil_append, Nat.zero_add] at tl
  obtain ⟨c1, c2, c3, c4, c5, c6⟩ := tl.counts
  refine ⟨f, hf, c1, c2, c3, c4, fun v => ?_, c6⟩
  rw [c5 v]
  apply List.countP_congr
  intro t _
  rw [show (625 : Nat) = 5 ^ 4 from rfl, offsetWord_tail]

/-- Sample 30 looks at bits 30, 31, 0, ..., 5. -/
example : cyclicByte 0x80000015 30 = 0b01010110 := by decide
example : offsetWord (fun k => if k = 151 then 0x80000015 else 0) 30 150 5 = 2 * 125 := by decide

end Dh
