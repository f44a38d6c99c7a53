import Verif.Proof.NtupleCyclic2
import Verif.Proof.UintRand
set_option linter.unusedSimpArgs false
namespace Dh
open Spec


theorem rb_idx (P n t Q off : Nat) (hQ : Q = (P + n - 1) / 32) (ht : t < n)
    (hoff : off = (5 - Q % 6) * 32 + (32 * (Q + 1) - (P + n))) :
    (off + n - 1 - t) / 32 % 6 = 5 - ((P + t) / 32) % 6 ∧ (off + n - 1 - t) % 32 = 31 - (P + t) % 32 := by
  have hmod : Q % 6 < 6 := Nat.mod_lt _ (by omega)
  obtain ⟨z, hz⟩ : ∃ z, z = Q / 6 := ⟨_, rfl⟩
  have hQz : Q = 6 * z + Q % 6 := by omega
  obtain ⟨w, hw⟩ : ∃ w, w = (P + t) / 32 := ⟨_, rfl⟩
  obtain ⟨b, hb⟩ : ∃ b, b = (P + t) % 32 := ⟨_, rfl⟩
  have hwb : P + t = 32 * w + b := by omega
  have hb32 : b < 32 := by omega
  have hPn : 32 * Q + 1 ≤ P + n ∧ P + n ≤ 32 * Q + 32 := by omega
  have hwQ : w ≤ Q := by omega
  have key : off + n - 1 - t = 32 * (6 * z + 5 - w) + (31 - b) := by omega
  rw [key, ← hw, ← hb]
  constructor
  · have : (32 * (6 * z + 5 - w) + (31 - b)) / 32 = 6 * z + 5 - w := by omega
    rw [this]
    clear hQ hoff hw hb hwb hPn key this
    omega
  · omega

section
variable (r : Nat) (src : Src) (p0 : Nat)

/-- The word stream feeding the circular buffer. -/
abbrev uw (k : Nat) : UInt := urWord r src (p0 * r) k

/-- The circular buffer holds words `a, ..., a+5`, word `k` in slot `5 - k % 6`, and
`a + 6` words have been drawn. -/
structure BufInv (a : Nat) (s : RBState) : Prop where
  len : s.buf.length = 6
  hbuf : ∀ k, a ≤ k → k < a + 6 → s.buf.getD (5 - k % 6) 0 = uw r src p0 k
  hur : URReach r src p0 (a + 6) s.ur

/-- State after `P` bits have been served (first call done). -/
structure RBInv (P : Nat) (s : RBState) : Prop where
  hb : BufInv r src p0 ((P - 1) / 32) s
  hic : s.iclear = 5 - (((P - 1) / 32 % 6 : Nat) : Int)
  hbr : s.brindex = if P = 0 then 6 else 5 - (((P - 1) / 32 % 6 : Nat) : Int)
  hbi : s.bitindex = if P = 0 then 0 else 32 * ((P - 1) / 32 + 1 : Nat) - (P : Int)

variable (hr : 0 < r) (hr32 : r ≤ 32) (hw : ∀ k i, r ≤ i → (src k).getLsbD i = false)

include hr hr32 hw in
theorem rbFill_spec : ∀ (i : Nat) (s : RBState), i ≤ 6 → s.buf.length = 6 →
    (∀ k < 6 - i, s.buf.getD (5 - k) 0 = uw r src p0 k) → URReach r src p0 (6 - i) s.ur →
    ∃ s', rbFill r src i s = .ok s' ∧ s'.buf.length = 6 ∧
      (∀ k < 6, s'.buf.getD (5 - k) 0 = uw r src p0 k) ∧ URReach r src p0 6 s'.ur := by
  intro i
  induction i with
  | zero =>
    intro s _ hl hb hu
    exact ⟨s, rfl, hl, hb, hu⟩
  | succ i ih =>
    intro s hi hl hb hu
    obtain ⟨ur', h1, h2⟩ := getUintRand_reach r src hr hr32 hw p0 (6 - (i + 1)) s.ur hu
    rw [rbFill, h1]
    simp only [Res.bind_ok]
    rw [wr, if_pos (by omega)]
    simp only [Res.bind_ok]
    apply ih
    · omega
    · simp [hl]
    · intro k hk
      simp only
      by_cases hki : 5 - k = i
      · have : k = 6 - (i + 1) := by omega
        rw [List.getD_eq_getElem?_getD, hki, List.getElem?_set_self (by omega), this]; rfl
      · rw [List.getD_eq_getElem?_getD, List.getElem?_set_ne (by omega), ← List.getD_eq_getElem?_getD]
        exact hb k (by omega)
    · simp only
      have : 6 - (i + 1) + 1 = 6 - i := by omega
      rw [← this]; exact h2

include hr hr32 hw in
theorem rbBackfill_spec (b : Nat) : ∀ (fuel a : Nat) (s : RBState), a ≤ b → b - a ≤ fuel → b - a < 6 →
    BufInv r src p0 a s → s.iclear = 5 - ((a % 6 : Nat) : Int) → s.brindex = 5 - ((b % 6 : Nat) : Int) →
    ∃ s', rbBackfill r src fuel s = .ok s' ∧ BufInv r src p0 b s' ∧ s'.iclear = 5 - ((b % 6 : Nat) : Int) ∧
      s'.brindex = s.brindex ∧ s'.bitindex = s.bitindex ∧ s'.output = s.output := by
  intro fuel
  induction fuel with
  | zero =>
    intro a s hab hf _ h hi hbr
    have : a = b := by omega
    subst this
    refine ⟨s, ?_, h, hi, rfl, rfl, rfl⟩
    rw [rbBackfill, if_neg (by rw [hi, hbr]; simp)]
  | succ fuel ih =>
    intro a s hab hf h6 h hi hbr
    by_cases he : a = b
    · subst he
      refine ⟨s, ?_, h, hi, rfl, rfl, rfl⟩
      rw [rbBackfill, if_neg (by rw [hi, hbr]; simp)]
    · rw [rbBackfill, if_pos (by rw [hi, hbr]; omega)]
      simp only
      obtain ⟨ur', h1, h2⟩ := getUintRand_reach r src hr hr32 hw p0 (a + 6) s.ur h.hur
      rw [h1]
      simp only [Res.bind_ok]
      have hin : ¬ s.iclear < 0 := by omega
      have hit : s.iclear.toNat = 5 - a % 6 := by omega
      rw [wrI, if_neg hin, wr, if_pos (by rw [h.len]; omega), hit]
      simp only [Res.bind_ok]
      obtain ⟨s', h3, h4, h5, h6', h7, h8⟩ := ih (a + 1) { s with ur := ur', buf := s.buf.set (5 - a % 6) (urWord r src (p0 * r) (a + 6)), iclear := if s.iclear - 1 < 0 then s.iclear - 1 + 6 else s.iclear - 1 }
        (by omega) (by omega) (by omega) (by
          refine ⟨by simp [h.len], ?_, h2⟩
          intro k hk1 hk2
          simp only
          by_cases hka : k = a + 6
          · subst hka
            have : (a + 6) % 6 = a % 6 := by omega
            rw [this, List.getD_eq_getElem?_getD, List.getElem?_set_self (by rw [h.len]; omega)]; rfl
          · rw [List.getD_eq_getElem?_getD, List.getElem?_set_ne (by omega), ← List.getD_eq_getElem?_getD]
            exact h.hbuf k (by omega) (by omega))
        (by simp only; split <;> omega) (by simpa using hbr)
      exact ⟨s', h3, h4, h5, h6', h7, h8⟩

set_option maxHeartbeats 1000000 in
include hr hr32 hw in
/-- One request of at most 128 bits once the buffer is filled. -/
theorem getRandBits_core (P n : Nat) (s : RBState) (h : RBInv r src p0 P s) (hn : 0 < n) (hn128 : n ≤ 128)
    (rsize : Nat) (hrs : n ≤ rsize * 8) (hrs24 : rsize ≤ 24) :
    ∃ off, (¬ CyclicAborts n off → ∃ out s', getRandBits r src rsize n s = .ok ((bytesOf out).drop (24 - rsize), s') ∧
        out.length = 6 ∧ (∀ t, rightBit out t = (decide (t < n) && lsbStream 32 (uw r src p0) (P + t))) ∧
        RBInv r src p0 (P + n) s') ∧
      (CyclicAborts n off → getRandBits r src rsize n s = .exit) ∧
      off % 32 = (32 * ((P + n + 31) / 32) - (P + n)) := by
  have hQdef : ∃ Q, Q = (P + n - 1) / 32 := ⟨_, rfl⟩
  obtain ⟨Q, hQ⟩ := hQdef
  have hadef : ∃ a, a = (P - 1) / 32 := ⟨_, rfl⟩
  obtain ⟨a, ha⟩ := hadef
  have hb := h.hb; have hic := h.hic; have hbr := h.hbr; have hbi := h.hbi
  rw [← ha] at hb hic hbr hbi
  have hnb : ¬ s.brindex = -1 := by rw [hbr]; split <;> omega
  have hbr' : (if (if s.bitindex - (n % 32 : Nat) < 0 then s.brindex - (n / 32 : Nat) - 1 else s.brindex - (n / 32 : Nat)) < 0
      then (if s.bitindex - (n % 32 : Nat) < 0 then s.brindex - (n / 32 : Nat) - 1 else s.brindex - (n / 32 : Nat)) + 6
      else (if s.bitindex - (n % 32 : Nat) < 0 then s.brindex - (n / 32 : Nat) - 1 else s.brindex - (n / 32 : Nat)))
      = 5 - ((Q % 6 : Nat) : Int) := by
    rw [hbr, hbi]
    by_cases hP : P = 0
    · simp only [hP, if_true]
      subst hP
      split <;> split <;> omega
    · simp only [hP, if_false]
      split <;> split <;> omega
  have hbi' : (if s.bitindex - (n % 32 : Nat) < 0 then s.bitindex - (n % 32 : Nat) + 32 else s.bitindex - (n % 32 : Nat))
      = 32 * (Q + 1 : Nat) - ((P + n : Nat) : Int) := by
    rw [hbi]
    by_cases hP : P = 0
    · simp only [hP, if_true]
      subst hP
      split <;> omega
    · simp only [hP, if_false]
      split <;> omega
  have hQa : Q - a ≤ 4 := by omega
  have haQ : a ≤ Q := by omega
  obtain ⟨off, hoff⟩ : ∃ off : Nat, off = (5 - Q % 6) * 32 + (32 * (Q + 1) - (P + n)) := ⟨_, rfl⟩
  have hoffI : ((5 - ((Q % 6 : Nat) : Int)) * 32 + (32 * (Q + 1 : Nat) - ((P + n : Nat) : Int))).toNat = off := by
    have : Q % 6 < 6 := Nat.mod_lt _ (by omega)
    omega
  have hlen6 : s.buf.length = 6 := hb.len
  have hraw := getNtupleCyclic_raw s.buf 6 n off (by omega) hn (by omega) (by omega)
  rw [hlen6] at hraw
  have unf : getRandBits r src rsize n s = (do
      let out ← getNtupleCyclic s.buf 6 6 n off
      let s ← rbBackfill r src 6 { s with output := out, brindex := 5 - ((Q % 6 : Nat) : Int), bitindex := 32 * (Q + 1 : Nat) - ((P + n : Nat) : Int) }
      .ok ((bytesOf s.output).drop (24 - rsize), s)) := by
    unfold getRandBits
    simp only [if_neg (show ¬ n = 0 by omega), if_neg (show ¬ n > (6 - 2) * 32 by omega), if_neg (show ¬ n > rsize * 8 by omega),
      hnb, if_false, Res.bind_ok, Res.pure_eq, hbr', hbi', hoffI, if_neg (show ¬ rsize > 24 by omega)]
  refine ⟨off, ?_, ?_, ?_⟩
  · intro hna
    obtain ⟨out, h1, h2⟩ := hraw.1 hna
    obtain ⟨s', h3, h4, h5, h6, h7, h8⟩ := rbBackfill_spec r src p0 hr hr32 hw Q 6 a
      { s with output := out, brindex := 5 - ((Q % 6 : Nat) : Int), bitindex := 32 * (Q + 1 : Nat) - ((P + n : Nat) : Int) }
      haQ (by omega) (by omega) ⟨hb.len, hb.hbuf, hb.hur⟩ hic rfl
    refine ⟨out, s', ?_, h2.1, ?_, ?_⟩
    · rw [unf, h1]
      simp only [Res.bind_ok, h3, h8]
    · intro t
      rw [h2.rightBit (by omega) t]
      by_cases ht : t < n
      · simp only [ht, decide_true, Bool.true_and]
        unfold gBit msbStream lsbStream
        obtain ⟨e1, e2⟩ := rb_idx P n t Q off hQ ht hoff
        rw [hlen6, e1, e2, hb.hbuf ((P + t) / 32) (by omega) (by omega)]
        have e3 : 31 - (31 - (P + t) % 32) = (P + t) % 32 := by omega
        have e4 : 31 - (P + t) % 32 < 32 := by omega
        simp only [msb, e3, e4]; simp
      · simp [ht]
    · refine ⟨?_, ?_, ?_, ?_⟩
      · rw [← hQ]; exact h4
      · rw [← hQ]; exact h5
      · rw [← hQ, if_neg (by omega), h6]
      · rw [← hQ, if_neg (by omega), h7]
  · intro hab
    rw [unf, hraw.2 hab]
    rfl
  · omega

theorem drop_bytesOf_four (out : List UInt) (h : out.length = 6) :
    (bytesOf out).drop 20 = bytesOf [out.getD 5 0] := by
  match out, h with
  | [a, b, c, d, e, f], _ => rfl

theorem uintOfBytes_bytesOf (w : UInt) : uintOfBytes (bytesOf [w]) = w := by
  apply BitVec.eq_of_getLsbD_eq
  intro i hi
  simp only [uintOfBytes, bytesOf, List.flatMap_cons, List.flatMap_nil, List.append_nil, List.getD_cons_zero, List.getD_cons_succ,
    BitVec.getLsbD_or, BitVec.getLsbD_shiftLeft, BitVec.getLsbD_setWidth, BitVec.getLsbD_extractLsb', hi, decide_true, Bool.true_and]
  by_cases h8 : i < 8
  · simp [h8, show i < 16 by omega, show i < 24 by omega]
  · by_cases h16 : i < 16
    · have e : 8 + (i - 8) = i := by omega
      have : i - 8 < 8 := by omega
      have h3 : i - 8 < 32 := by omega
      simp only [h8, h16, e, this, h3, show i < 24 by omega]; simp
    · by_cases h24 : i < 24
      · have e : 16 + (i - 16) = i := by omega
        have h1 : ¬ i - 8 < 8 := by omega
        have h2 : i - 16 < 8 := by omega
        have h3 : i - 16 < 32 := by omega
        simp only [h8, h16, h24, e, h1, h2, h3]; simp
      · have e : 24 + (i - 24) = i := by omega
        have h1 : ¬ i - 8 < 8 := by omega
        have h2 : ¬ i - 16 < 8 := by omega
        have h3 : i - 24 < 8 := by omega
        have h4 : i - 24 < 32 := by omega
        simp only [h8, h16, h24, e, h1, h2, h3, h4]; simp

theorem not_aborts_of_le (n off : Nat) (h : n ≤ 32) : ¬ CyclicAborts n off := by
  unfold CyclicAborts; omega

include hr hr32 hw in
/-- One request of at most 32 bits with a 4-byte result. -/
theorem getRandBits_uint (P n : Nat) (s : RBState) (h : RBInv r src p0 P s) (hn : 0 < n) (hn32 : n ≤ 32) :
    ∃ b s', getRandBits r src 4 n s = .ok (b, s') ∧
      uintOfBytes b = takeBits (lsbStream 32 (uw r src p0)) P n ∧ RBInv r src p0 (P + n) s' := by
  obtain ⟨off, h1, _, _⟩ := getRandBits_core r src p0 hr hr32 hw P n s h hn (by omega) 4 (by omega) (by omega)
  obtain ⟨out, s', h2, h3, h4, h5⟩ := h1 (not_aborts_of_le n off hn32)
  refine ⟨_, s', h2, ?_, h5⟩
  rw [drop_bytesOf_four out h3, uintOfBytes_bytesOf]
  apply BitVec.eq_of_getLsbD_eq
  intro i hi
  have := h4 i
  unfold rightBit at this
  rw [Nat.div_eq_of_lt hi, Nat.mod_eq_of_lt hi, List.getD_eq_getElem?_getD, List.getElem?_reverse (by omega), h3,
    ← List.getD_eq_getElem?_getD] at this
  rw [this, takeBits_getLsbD]
  simp [hi]

include hr hr32 hw in
/-- The first request after start-up or reset fills the buffer and then behaves like a
request in the state where no bit has been served. -/
theorem getRandBits_first (n : Nat) (s : RBState) (hbr : s.brindex = -1) (hlen : s.buf.length = 6)
    (hur : URReach r src p0 0 s.ur) (rsize : Nat) (hn : 0 < n) (hn128 : n ≤ 128) (hrs : n ≤ rsize * 8) :
    ∃ s0, getRandBits r src rsize n s = getRandBits r src rsize n s0 ∧ RBInv r src p0 0 s0 := by
  obtain ⟨s1, h1, h2, h3, h4⟩ := rbFill_spec r src p0 hr hr32 hw 6 s (by omega) hlen (by intro k hk; omega) hur
  refine ⟨{ s1 with brindex := 6, iclear := 5, bitindex := 0 }, ?_, ?_⟩
  · unfold getRandBits
    simp only [if_neg (show ¬ n = 0 by omega), if_neg (show ¬ n > (6 - 2) * 32 by omega), if_neg (show ¬ n > rsize * 8 by omega),
      hbr, if_true, h1, Res.bind_ok, Res.pure_eq]
    rfl
  · refine ⟨⟨h2, ?_, h4⟩, by simp, by simp, by simp⟩
    intro k hk1 hk2
    have : k % 6 = k := by omega
    rw [this]
    exact h3 k (by omega)

end
end Dh
