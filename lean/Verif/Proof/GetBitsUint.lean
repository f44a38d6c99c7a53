import Verif.Model.GetBitsUint
import Verif.Spec.BitQueue
set_option linter.unusedSimpArgs false
namespace Dh
open Spec

theorem msbBits_succ (l : Nat) (w : UInt) : msbBits (l + 1) w = w.getLsbD l :: msbBits l w := by
  unfold msbBits
  rw [List.range_succ_eq_map]
  simp only [List.map_cons, List.map_map]
  congr 1
  apply List.map_congr_left
  intro i hi
  simp only [Function.comp]
  congr 1
  omega

theorem msbBits_length (l : Nat) (w : UInt) : (msbBits l w).length = l := by simp [msbBits]

theorem valMsb_append (bs : List Bool) (b : Bool) : valMsb (bs ++ [b]) = 2 * valMsb bs + (if b then 1 else 0) := by
  simp [valMsb]

theorem double_add_getLsbD (v : UInt) (b : Bool) (i : Nat) (hi : i < 32) :
    (2 * v + (if b then 1 else 0)).getLsbD i = if i = 0 then b else v.getLsbD (i - 1) := by
  have h2 : (2 : UInt) * v = v <<< 1 := by
    apply BitVec.eq_of_toNat_eq
    simp [BitVec.toNat_mul, BitVec.toNat_shiftLeft, Nat.shiftLeft_eq, Nat.mul_comm]
  rw [h2]
  have hor : v <<< 1 + (if b then (1:UInt) else 0) = v <<< 1 ||| (if b then 1 else 0) := by
    apply BitVec.add_eq_or_of_and_eq_zero
    apply BitVec.eq_of_getLsbD_eq
    intro j hj
    rw [BitVec.getLsbD_and, BitVec.getLsbD_shiftLeft]
    by_cases h0 : j = 0
    · subst h0; simp
    · cases b
      · simp
      · have : (1 : UInt).getLsbD j = false := by
          have := BitVec.getLsbD_twoPow (w := 32) (i := 0) (j := j)
          rw [show (BitVec.twoPow 32 0 : UInt) = 1 from rfl] at this
          rw [this]; simp; omega
        simp only [if_true, this]; simp
  rw [hor, BitVec.getLsbD_or, BitVec.getLsbD_shiftLeft]
  by_cases h0 : i = 0
  · subst h0
    cases b
    · simp
    · simp
  · have hb : (if b = true then (1 : UInt) else 0).getLsbD i = false := by
      cases b
      · simp
      · have := BitVec.getLsbD_twoPow (w := 32) (i := 0) (j := i)
        rw [show (BitVec.twoPow 32 0 : UInt) = 1 from rfl] at this
        simp only [if_true]
        rw [this]; simp; omega
    rw [hb, if_neg h0]
    simp [hi, show ¬ i < 1 by omega]

theorem reverse_ind {α : Type} {P : List α → Prop} (h0 : P []) (hs : ∀ l a, P l → P (l ++ [a])) :
    ∀ l, P l := by
  intro l
  rw [← List.reverse_reverse l]
  induction l.reverse with
  | nil => simpa using h0
  | cons a t ih => rw [List.reverse_cons]; exact hs _ _ ih

theorem valMsb_getLsbD (bs : List Bool) : ∀ i < 32, (valMsb bs).getLsbD i =
    (decide (i < bs.length) && bs.getD (bs.length - 1 - i) false) := by
  induction bs using reverse_ind with
  | h0 => intro i _; simp [valMsb]
  | hs l b ih =>
    intro i hi
    rw [valMsb_append, double_add_getLsbD _ _ _ hi]
    by_cases h0 : i = 0
    · subst h0
      simp [List.getD_eq_getElem?_getD]
    · rw [if_neg h0, ih (i - 1) (by omega)]
      simp only [List.length_append, List.length_singleton]
      by_cases hl : i < l.length + 1
      · have e1 : i - 1 < l.length := by omega
        have e2 : l.length + 1 - 1 - i = l.length - 1 - (i - 1) := by omega
        have e3 : l.length - 1 - (i - 1) < l.length := by omega
        rw [e2]
        simp [hl, e1, List.getD_eq_getElem?_getD, List.getElem?_append_left e3]
      · have e1 : ¬ (i - 1 < l.length) := by omega
        simp [hl, e1]

/-- Taking bits already buffered. -/
theorem popN_buffered (r : Nat) (src : Src) (w : UInt) (pos : Nat) : ∀ (n left : Nat), n ≤ left →
    Queue.popN r src n ⟨msbBits left w, pos⟩ =
      ((List.range n).map (fun j => w.getLsbD (left - 1 - j)), ⟨msbBits (left - n) w, pos⟩) := by
  intro n
  induction n with
  | zero => intro left _; simp [Queue.popN]
  | succ n ih =>
    intro left h
    obtain ⟨l, rfl⟩ : ∃ l, left = l + 1 := ⟨left - 1, by omega⟩
    rw [Queue.popN, Queue.pop, msbBits_succ]
    simp only
    rw [ih l (by omega)]
    simp only [List.range_succ_eq_map, List.map_cons, List.map_map]
    refine Prod.ext ?_ ?_
    · simp only
      congr 1
      apply List.map_congr_left
      intro j hj
      simp only [Function.comp]
      congr 1; omega
    · simp only; congr 2; omega

theorem popN_add (r : Nat) (src : Src) : ∀ (m n : Nat) (q : Queue),
    Queue.popN r src (m + n) q =
      ((Queue.popN r src m q).1 ++ (Queue.popN r src n (Queue.popN r src m q).2).1,
        (Queue.popN r src n (Queue.popN r src m q).2).2) := by
  intro m
  induction m with
  | zero => intro n q; simp [Queue.popN]
  | succ m ih =>
    intro n q
    rw [show m + 1 + n = (m + n) + 1 by omega, Queue.popN, Queue.popN]
    simp only [ih]
    simp

theorem popN_length (r : Nat) (src : Src) : ∀ (n : Nat) (q : Queue), (Queue.popN r src n q).1.length = n := by
  intro n
  induction n with
  | zero => intro q; rfl
  | succ n ih => intro q; rw [Queue.popN]; simp [ih]

/-- An empty queue behaves as one holding the next value. -/
theorem popN_refill (r : Nat) (src : Src) (hr : 0 < r) (pos n : Nat) (hn : 0 < n) :
    Queue.popN r src n ⟨[], pos⟩ = Queue.popN r src n ⟨msbBits r (src pos), pos + 1⟩ := by
  obtain ⟨m, rfl⟩ : ∃ m, n = m + 1 := ⟨n - 1, by omega⟩
  obtain ⟨l, rfl⟩ : ∃ l, r = l + 1 := ⟨r - 1, by omega⟩
  rw [Queue.popN, Queue.popN]
  simp only [Queue.pop, msbBits_succ, List.headD, List.tail]

theorem gbLoop_spec (r : Nat) (src : Src) (mask : UInt) (hr : 0 < r) (hr32 : r ≤ 32)
    (hw : ∀ k i, r ≤ i → (src k).getLsbD i = false) : ∀ (fuel nbits : Nat) (bits : UInt) (pos : Nat),
    0 < nbits → nbits ≤ 32 → nbits < fuel →
    ∃ v w left pos', gbLoop r src mask fuel nbits bits pos = .ok (v &&& mask, ⟨w, left, pos'⟩) ∧
      left < r ∧ (∀ i, r ≤ i → w.getLsbD i = false) ∧
      (Queue.popN r src nbits ⟨[], pos⟩).2 = ⟨msbBits left w, pos'⟩ ∧
      ∀ i < 32, v.getLsbD i = (bits.getLsbD i || (decide (i < nbits) &&
        (Queue.popN r src nbits ⟨[], pos⟩).1.getD (nbits - 1 - i) false)) := by
  intro fuel
  induction fuel with
  | zero => intro nbits bits pos _ _ h; omega
  | succ fuel ih =>
    intro nbits bits pos h0 h32 hf
    rw [gbLoop]
    by_cases hc : r ≥ nbits
    · simp only [hc, if_true]
      rw [shr, if_pos (by omega)]
      simp only [Res.bind_ok]
      rw [popN_refill r src hr pos nbits h0, popN_buffered r src _ _ nbits r hc]
      refine ⟨_, src pos, r - nbits, pos + 1, rfl, by omega, hw pos, rfl, ?_⟩
      intro i hi
      rw [BitVec.getLsbD_or, BitVec.getLsbD_ushiftRight]
      congr 1
      by_cases hin : i < nbits
      · have e1 : nbits - 1 - i < nbits := by omega
        have e2 : r - 1 - (nbits - 1 - i) = r - nbits + i := by omega
        simp [hin, List.getD_eq_getElem?_getD, List.getElem?_map, List.getElem?_range e1, e2]
      · rw [hw pos _ (by omega)]; simp [hin]
    · simp only [hc, if_false]
      rw [shl, if_pos (by omega)]
      simp only [Res.bind_ok]
      obtain ⟨v, w, left, pos', h1, h2, h3, h4, h5⟩ := ih (nbits - r) (bits ||| src pos <<< (nbits - r)) (pos + 1)
        (by omega) (by omega) (by omega)
      refine ⟨v, w, left, pos', h1, h2, h3, ?_, ?_⟩
      · rw [popN_refill r src hr pos nbits h0, show nbits = r + (nbits - r) by omega, popN_add,
          popN_buffered r src _ _ r r (by omega)]
        simp only [Nat.sub_self]
        rw [show msbBits 0 (src pos) = [] from rfl]
        exact h4
      · intro i hi
        rw [h5 i hi, BitVec.getLsbD_or, BitVec.getLsbD_shiftLeft, Bool.or_assoc]
        congr 1
        rw [popN_refill r src hr pos nbits h0, show Queue.popN r src nbits = Queue.popN r src (r + (nbits - r)) by congr 1; omega, popN_add,
          popN_buffered r src _ _ r r (by omega)]
        simp only [Nat.sub_self]
        rw [show msbBits 0 (src pos) = [] from rfl]
        simp only [List.getD_eq_getElem?_getD]
        by_cases hin : i < nbits - r
        · rw [List.getElem?_append_right (by simp; omega)]
          have e1 : nbits - 1 - i - r = nbits - r - 1 - i := by omega
          simp [hin, hi, show i < nbits by omega, e1]
        · by_cases hin2 : i < nbits
          · rw [List.getElem?_append_left (by simp; omega)]
            have e1 : nbits - 1 - i < r := by omega
            have e2 : r - 1 - (nbits - 1 - i) = i - (nbits - r) := by omega
            simp [hin, hin2, hi, List.getElem?_range e1, e2]
          · have : (src pos).getLsbD (i - (nbits - r)) = false := hw _ _ (by omega)
            simp only [hin, hin2, this]; simp

/-- Meaning of the statics. -/
structure GBInv (r : Nat) (s : GBState) : Prop where
  hleft : s.left < r
  hbuf : ∀ i, r ≤ i → s.buf.getLsbD i = false

theorem mask_getLsbD (n : Nat) (hn : n < 32) (i : Nat) (hi : i < 32) :
    ((1 : UInt) <<< n - 1).getLsbD i = decide (i < n) := by
  have : ((1 : UInt) <<< n - 1) = (BitVec.allOnes 32) >>> (32 - n) := by
    apply BitVec.eq_of_toNat_eq
    rw [BitVec.toNat_sub, BitVec.toNat_shiftLeft, BitVec.toNat_ushiftRight, BitVec.toNat_allOnes]
    have h1 : 2 ^ n < 2 ^ 32 := Nat.pow_lt_pow_right (by omega) hn
    have h1' : 0 < 2 ^ n := Nat.pos_of_ne_zero (by simp)
    have h2 : (1 : UInt).toNat = 1 := rfl
    rw [h2, Nat.shiftLeft_eq, Nat.one_mul, Nat.mod_eq_of_lt h1, Nat.shiftRight_eq_div_pow]
    have h3 : 2 ^ 32 = 2 ^ n * 2 ^ (32 - n) := by rw [← Nat.pow_add]; congr 1; omega
    have h4 : (2 ^ 32 - 1) / 2 ^ (32 - n) = 2 ^ n - 1 := by
      rw [h3]
      have hp : 0 < 2 ^ (32 - n) := Nat.pos_of_ne_zero (by simp)
      rw [Nat.div_eq_of_lt_le]
      · rw [Nat.sub_mul]; omega
      · rw [Nat.sub_add_cancel h1']
        have : 0 < 2 ^ n * 2 ^ (32 - n) := Nat.mul_pos h1' hp
        omega
    rw [h4]
    omega
  rw [this, BitVec.getLsbD_ushiftRight, BitVec.getLsbD_allOnes]
  by_cases h : i < n
  · simp [h]; omega
  · simp [h]; omega

/-- One request served from or through the buffer. -/
theorem getRandBitsUint_step (r : Nat) (src : Src) (hr : 0 < r) (hr32 : r ≤ 32)
    (hw : ∀ k i, r ≤ i → (src k).getLsbD i = false) (n : Nat) (mask : UInt) (hn : n ≤ 32) (hnr : n ≠ r)
    (hm : n = 32 ∧ mask ≠ 0 ∨ (mask = 0 ∧ n < 32) ∨ ∀ i < 32, mask.getLsbD i = decide (i < n)) (s : GBState) (hs : GBInv r s) :
    ∃ s', getRandBitsUint r src n mask s =
        .ok (valMsb (Queue.popN r src n ⟨msbBits s.left s.buf, s.pos⟩).1, s') ∧ GBInv r s' ∧
      (Queue.popN r src n ⟨msbBits s.left s.buf, s.pos⟩).2 = ⟨msbBits s'.left s'.buf, s'.pos⟩ := by
  obtain ⟨m', hm1, hm2⟩ : ∃ m' : UInt, (if mask = 0 then do
      let m ← shl 1 n
      pure (m - 1)
    else pure mask : Res UInt) = .ok m' ∧
      ∀ i < 32, (if n = 32 then BitVec.allOnes 32 else m').getLsbD i = decide (i < n) := by
    by_cases h0 : mask = 0
    · rw [if_pos h0]
      by_cases hn32 : n = 32
      · rcases hm with ⟨_, h⟩ | ⟨_, h⟩ | h
        · exact absurd h0 h
        · omega
        · have := h 0 (by omega); rw [h0] at this; simp [hn32] at this
      · rw [shl, if_pos (by omega)]
        refine ⟨_, rfl, ?_⟩
        intro i hi
        rw [if_neg hn32]
        exact mask_getLsbD n (by omega) i hi
    · rw [if_neg h0]
      refine ⟨_, rfl, ?_⟩
      intro i hi
      by_cases hn32 : n = 32
      · rw [if_pos hn32, BitVec.getLsbD_allOnes, hn32]
      · rw [if_neg hn32]
        rcases hm with ⟨h, _⟩ | ⟨h, _⟩ | h
        · exact absurd h hn32
        · exact absurd h h0
        · exact h i hi
  obtain ⟨M, hM⟩ : ∃ M, M = (if n = 32 then BitVec.allOnes 32 else m') := ⟨_, rfl⟩
  rw [← hM] at hm2
  have hval : ∀ (v : UInt), (∀ i < n, i < 32 → v.getLsbD i =
      (Queue.popN r src n ⟨msbBits s.left s.buf, s.pos⟩).1.getD (n - 1 - i) false) →
      v &&& M = valMsb (Queue.popN r src n ⟨msbBits s.left s.buf, s.pos⟩).1 := by
    intro v hv
    apply BitVec.eq_of_getLsbD_eq
    intro i hi
    rw [BitVec.getLsbD_and, hm2 i hi, valMsb_getLsbD _ i hi, popN_length]
    by_cases hin : i < n
    · rw [hv i hin hi]; simp [hin]
    · simp [hin]
  unfold getRandBitsUint
  rw [hm1]
  simp only [Res.bind_ok]
  rw [← hM, if_neg (by omega), if_neg hnr]
  have hl := hs.hleft
  by_cases hc : s.left ≥ n
  · rw [if_pos hc, shr, if_pos (by omega)]
    simp only [Res.bind_ok]
    rw [hval]
    · refine ⟨_, rfl, ⟨by simp only; omega, hs.hbuf⟩, ?_⟩
      rw [popN_buffered r src _ _ n s.left hc]
    · intro i hin hi
      rw [popN_buffered r src _ _ n s.left hc, BitVec.getLsbD_ushiftRight]
      have e1 : n - 1 - i < n := by omega
      have e2 : s.left - 1 - (n - 1 - i) = s.left - n + i := by omega
      simp [List.getD_eq_getElem?_getD, List.getElem?_range e1, e2]
  · rw [if_neg hc]
    have hbits : ∃ b : UInt, (if n - s.left = 32 then .ok 0 else shl s.buf (n - s.left) : Res UInt) = .ok b ∧
        ∀ i < 32, b.getLsbD i = (decide (n - s.left ≤ i) && s.buf.getLsbD (i - (n - s.left))) := by
      by_cases h32 : n - s.left = 32
      · rw [if_pos h32]
        refine ⟨_, rfl, ?_⟩
        intro i hi
        have : ¬ (n - s.left ≤ i) := by omega
        simp [this]
      · rw [if_neg h32, shl, if_pos (by omega)]
        refine ⟨_, rfl, ?_⟩
        intro i hi
        rw [BitVec.getLsbD_shiftLeft]
        by_cases h : i < n - s.left
        · simp [h, show ¬ (n - s.left ≤ i) by omega]
        · simp [h, hi, show (n - s.left ≤ i) by omega]
    obtain ⟨b, hb1, hb2⟩ := hbits
    rw [hb1]
    simp only [Res.bind_ok]
    obtain ⟨v, w, left, pos', h1, h2, h3, h4, h5⟩ := gbLoop_spec r src M hr hr32 hw 33 (n - s.left) b s.pos (by omega) (by omega) (by omega)
    rw [h1]
    have hsplit : Queue.popN r src n ⟨msbBits s.left s.buf, s.pos⟩ =
        Queue.popN r src (s.left + (n - s.left)) ⟨msbBits s.left s.buf, s.pos⟩ := by congr 1; omega
    rw [hval]
    · refine ⟨⟨w, left, pos'⟩, rfl, ⟨h2, h3⟩, ?_⟩
      rw [hsplit, popN_add, popN_buffered r src _ _ _ _ (Nat.le_refl _)]
      simp only [Nat.sub_self]
      exact h4
    · intro i hin hi
      rw [h5 i hi, hb2 i hi, hsplit, popN_add, popN_buffered r src _ _ _ _ (Nat.le_refl _)]
      simp only [Nat.sub_self, List.getD_eq_getElem?_getD]
      rw [show msbBits 0 s.buf = [] from rfl]
      by_cases hi2 : i < n - s.left
      · rw [List.getElem?_append_right (by simp; omega)]
        have e1 : n - 1 - i - s.left = n - s.left - 1 - i := by omega
        simp [hi2, show ¬ (n - s.left ≤ i) by omega, e1]
      · rw [List.getElem?_append_left (by simp; omega)]
        have e1 : n - 1 - i < s.left := by omega
        have e2 : s.left - 1 - (n - 1 - i) = i - (n - s.left) := by omega
        simp [hi2, show (n - s.left ≤ i) by omega, List.getElem?_range e1, e2]

/-- Masks callers may pass for an `n`-bit request: the `n`-bit mask, or zero when
`n < 32`; anything non-zero for a 32-bit request. -/
def MaskOk (n : Nat) (mask : UInt) : Prop :=
  (n = 32 ∧ mask ≠ 0) ∨ (mask = 0 ∧ n < 32) ∨ ∀ i < 32, mask.getLsbD i = decide (i < n)

theorem getRandBitsUints_spec (r : Nat) (src : Src) (hr : 0 < r) (hr32 : r ≤ 32)
    (hw : ∀ k i, r ≤ i → (src k).getLsbD i = false) : ∀ (reqs : List (Nat × UInt)) (s : GBState), GBInv r s →
    (∀ p ∈ reqs, p.1 ≤ 32 ∧ MaskOk p.1 p.2) →
    ∃ s', getRandBitsUints r src reqs s =
        .ok ((Queue.serve r src (reqs.map Prod.fst) ⟨msbBits s.left s.buf, s.pos⟩).1, s') ∧ GBInv r s' ∧
      (Queue.serve r src (reqs.map Prod.fst) ⟨msbBits s.left s.buf, s.pos⟩).2 = ⟨msbBits s'.left s'.buf, s'.pos⟩ := by
  intro reqs
  induction reqs with
  | nil => intro s hs _; exact ⟨s, rfl, hs, rfl⟩
  | cons p ps ih =>
    intro s hs hreq
    obtain ⟨n, m⟩ := p
    obtain ⟨hn, hm⟩ := hreq (n, m) (by simp)
    simp only at hn hm
    rw [getRandBitsUints]
    simp only [List.map_cons]
    rw [Queue.serve]
    by_cases hnr : n = r
    · have h1 : getRandBitsUint r src n m s = .ok (src s.pos, { s with pos := s.pos + 1 }) := by
        unfold getRandBitsUint
        have : ∃ m', (if m = 0 then do
            let m ← shl 1 n
            pure (m - 1)
          else pure m : Res UInt) = .ok m' := by
          by_cases h0 : m = 0
          · rw [if_pos h0]
            have hn32 : n < 32 := by
              rcases hm with ⟨_, h⟩ | ⟨_, h⟩ | h
              · exact absurd h0 h
              · exact h
              · have h3 := h 0 (by omega); rw [h0] at h3; simp at h3; omega
            rw [shl, if_pos hn32]
            exact ⟨_, rfl⟩
          · rw [if_neg h0]; exact ⟨_, rfl⟩
        obtain ⟨m', hm'⟩ := this
        rw [hm']
        simp only [Res.bind_ok]
        rw [if_neg (by omega), if_pos hnr]
      rw [h1]
      simp only [Res.bind_ok]
      obtain ⟨s', h2, h3, h4⟩ := ih { s with pos := s.pos + 1 } ⟨hs.hleft, hs.hbuf⟩ (fun p hp => hreq p (by simp [hp]))
      simp only at h2 h4
      rw [h2]
      simp only [Res.bind_ok, hnr, if_true]
      exact ⟨s', rfl, h3, h4⟩
    · obtain ⟨s1, h1, h2, h3⟩ := getRandBitsUint_step r src hr hr32 hw n m hn hnr hm s hs
      rw [h1]
      simp only [Res.bind_ok]
      obtain ⟨s', h4, h5, h6⟩ := ih s1 h2 (fun p hp => hreq p (by simp [hp]))
      rw [h4]
      simp only [Res.bind_ok, hnr, if_false, h3]
      exact ⟨s', rfl, h5, h6⟩

end Dh
