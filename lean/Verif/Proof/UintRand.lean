import Verif.Proof.NtupleCyclic
import Verif.Model.UintRand
set_option linter.unusedSimpArgs false
namespace Dh
open Spec

/-- Invariant of the statics: `P` bits of the stream have been handed out, `e` further bits
sit in `bits_rand[1]`, on top of a stale word `junk` (nonzero only if `e = 0`). -/
structure URInv (r : Nat) (src : Src) (P e : Nat) (junk : UInt) (s : URState) : Prop where
  he : e ≤ r
  h32 : r = 32 → e = 32
  hpos : s.pos * r = P + e
  hbl : s.bleft = 32 - (e : Int)
  hb1 : s.b1 = takeBits (lsbStream r src) P e + junk
  hj : 0 < e → junk = 0

theorem add_zero_u (x : UInt) : x + 0 = x := BitVec.add_zero x

theorem lsbStream_at (r : Nat) (src : Src) (q i : Nat) (hi : i < r) :
    lsbStream r src (q * r + i) = (src q).getLsbD i := by
  unfold lsbStream
  rw [Nat.mul_comm, Nat.mul_add_div (by omega), Nat.div_eq_of_lt hi, Nat.mul_add_mod, Nat.mod_eq_of_lt hi]
  rfl

theorem takeBits_add_disjoint (S : Nat → Bool) (P e d : Nat) (w : UInt) (hd : e + d ≤ 32)
    (hw : ∀ i < 32, w.getLsbD i = (decide (e ≤ i ∧ i < e + d) && S (P + i))) :
    takeBits S P e + w = takeBits S P (e + d) := by
  apply BitVec.eq_of_getLsbD_eq
  intro i hi
  rw [add_getLsbD_disjoint, hw i hi, takeBits_getLsbD, takeBits_getLsbD]
  · by_cases h1 : i < e
    · have h2 : ¬ (e ≤ i ∧ i < e + d) := by omega
      have h3 : i < e + d := by omega
      simp only [h1, h2, h3, hi]; simp
    · by_cases h3 : i < e + d
      · have h2 : (e ≤ i ∧ i < e + d) := by omega
        simp only [h1, h2, h3, hi]; simp
      · have h2 : ¬ (e ≤ i ∧ i < e + d) := by omega
        simp only [h1, h2, h3, hi]; simp
  · intro j hj hx
    rw [takeBits_getLsbD] at hx
    simp only [Bool.and_eq_true, decide_eq_true_eq] at hx
    rw [hw j hj]
    have : ¬ (e ≤ j ∧ j < e + d) := by omega
    simp only [this]; simp

/-- The part of the invariant that holds inside the refill loop. -/
structure URInv0 (r : Nat) (src : Src) (P e : Nat) (junk : UInt) (s : URState) : Prop where
  he : e ≤ 32
  hpos : s.pos * r = P + e
  hbl : s.bleft = 32 - (e : Int)
  hb1 : s.b1 = takeBits (lsbStream r src) P e + junk

theorem u32_sub (a b : Nat) (h : b ≤ a) (ha : a ≤ 32 + b) (hlt : a - b ≤ 31) : u32 ((a : Int) - (b : Int)) = u32 ((a - b : Nat) : Int) := by
  congr 1; omega

theorem bWindow_lsb' (x : UInt) (a b o : Int) (ha : 0 ≤ a) (hab : a ≤ b) (hb : b ≤ 31) (ho0 : 0 ≤ o) (ho : o ≤ 31) :
    ∃ v, bWindow x (u32 a) (u32 b) (u32 o) = .ok v ∧
      ∀ i < 32, v.getLsbD i = (decide (i + o.toNat ≤ 31 ∧ a.toNat + (31 - i - o.toNat) ≤ b.toNat) && x.getLsbD (i + o.toNat - a.toNat)) := by
  have h := bWindow_lsb x a.toNat b.toNat o.toNat (by omega) (by omega) (by omega)
  rw [Int.toNat_of_nonneg ha, Int.toNat_of_nonneg (by omega), Int.toNat_of_nonneg ho0] at h
  exact h

theorem urLoop_spec (r : Nat) (src : Src) (hr : 0 < r) (hr32 : r ≤ 32) (P : Nat) (junk : UInt) :
    ∀ (fuel e : Nat) (s : URState), 32 ≤ e + fuel → URInv0 r src P e junk s →
      ∃ e' s', urLoop r src fuel s = .ok s' ∧ URInv0 r src P e' junk s' ∧ 32 ≤ e' + r ∧ e ≤ e' ∧
        (e' = e ∨ e' < 32) := by
  intro fuel
  induction fuel with
  | zero =>
    intro e s hf h
    have : ¬ s.bleft > r := by rw [h.hbl]; omega
    exact ⟨e, s, by rw [urLoop, if_neg this], h, by omega, by omega, Or.inl rfl⟩
  | succ fuel ih =>
    intro e s hf h
    by_cases hc : s.bleft > r
    · have hbl := h.hbl
      obtain ⟨w, hw, hwb⟩ := bWindow_lsb' (src s.pos) (32 - r) 31 (s.bleft - r) (by omega) (by omega) (by omega) (by omega) (by omega)
      have hstep : urLoop r src (fuel+1) s = urLoop r src fuel ⟨src s.pos, s.b1 + w, s.bleft - r, s.pos + 1⟩ := by
        rw [urLoop, if_pos hc]
        simp only [hw, Res.bind_ok]
      rw [hstep]
      have hinv : URInv0 r src P (e + r) junk ⟨src s.pos, s.b1 + w, s.bleft - r, s.pos + 1⟩ := by
        refine ⟨by omega, ?_, by simp only; omega, ?_⟩
        · simp only [Nat.add_mul, h.hpos]; omega
        · simp only
          rw [h.hb1, BitVec.add_assoc, BitVec.add_comm junk, ← BitVec.add_assoc]
          rw [takeBits_add_disjoint (d := r)]
          · omega
          · intro i hi
            rw [hwb i hi]
            have e1 : (s.bleft - (r:Int)).toNat = 32 - e - r := by omega
            have e2 : ((32 : Int) - r).toNat = 32 - r := by omega
            rw [e1, e2]
            by_cases hin : e ≤ i ∧ i < e + r
            · have c1 : (i + (32 - e - r) ≤ 31 ∧ 32 - r + (31 - i - (32 - e - r)) ≤ (31 : Int).toNat) := by
                have : (31 : Int).toNat = 31 := rfl
                omega
              have c2 : i + (32 - e - r) - (32 - r) = i - e := by omega
              have c3 : P + i = s.pos * r + (i - e) := by rw [h.hpos]; omega
              rw [c2, c3, lsbStream_at _ _ _ _ (by omega)]
              simp only [hin, c1]
            · have c1 : ¬ (i + (32 - e - r) ≤ 31 ∧ 32 - r + (31 - i - (32 - e - r)) ≤ (31 : Int).toNat) := by
                have : (31 : Int).toNat = 31 := rfl
                omega
              simp only [hin, c1]; simp
      obtain ⟨e', s', h1, h2, h3, h4, h5⟩ := ih (e + r) _ (by omega) hinv
      exact ⟨e', s', h1, h2, h3, by omega, by omega⟩
    · refine ⟨e, s, by rw [urLoop, if_neg hc], h, ?_, by omega, Or.inl rfl⟩
      have := h.hbl
      have := h.he
      omega

/-- One call of `get_uint_rand` from a state in which the statics are set up. -/
theorem getUintRand_step0 (r : Nat) (src : Src) (hr : 0 < r) (hr32 : r ≤ 32) (P e : Nat) (junk : UInt) (s : URState)
    (h : URInv r src P e junk s) :
    ∃ e' s', getUintRand r src s = .ok (takeBits (lsbStream r src) P 32 + junk, s') ∧
      URInv r src (P + 32) e'
        (if r < 32 ∧ (P + 32) % r = 0 then takeBits (lsbStream r src) P 32 + junk else 0) s' := by
  have h0 : URInv0 r src P e junk s := ⟨by have := h.he; omega, h.hpos, h.hbl, h.hb1⟩
  obtain ⟨e1, s1, hl, hi, hr1, hee, hor⟩ := urLoop_spec r src hr hr32 P junk 32 e s (by omega) h0
  have hbl := h.hbl
  have hle := h.he
  have hnf : ¬ s.bleft = -1 := by omega
  unfold getUintRand
  simp only [hnf, if_false, hl, Res.bind_ok]
  have hbl1 := hi.hbl
  have hle1 := hi.he
  -- the completed word
  have hword : (if s1.bleft ≠ 0 then do
      let w ← bWindow (src s1.pos) (u32 (32 - s1.bleft)) (u32 31) (u32 0)
      pure (s1.b1 + w)
    else pure s1.b1 : Res UInt) = .ok (takeBits (lsbStream r src) P 32 + junk) := by
    by_cases hz : s1.bleft = 0
    · have he32 : e1 = 32 := by omega
      simp only [hz]
      rw [hi.hb1, he32]; simp
    · rw [if_pos hz]
      obtain ⟨w, hw, hwb⟩ := bWindow_lsb' (src s1.pos) (32 - s1.bleft) 31 0 (by omega) (by omega) (by omega) (by omega) (by omega)
      rw [hw]
      simp only [Res.bind_ok, Res.pure_eq, hi.hb1]
      rw [BitVec.add_assoc, BitVec.add_comm junk, ← BitVec.add_assoc, takeBits_add_disjoint (d := 32 - e1)]
      · congr 3; omega
      · omega
      · intro i hi32
        rw [hwb i hi32]
        have e2 : ((32 : Int) - s1.bleft).toNat = e1 := by omega
        have e3 : (0 : Int).toNat = 0 := rfl
        have e4 : (31 : Int).toNat = 31 := rfl
        rw [e2, e3, e4]
        by_cases hin : e1 ≤ i ∧ i < e1 + (32 - e1)
        · have c1 : i + 0 ≤ 31 ∧ e1 + (31 - i - 0) ≤ 31 := by omega
          have c3 : P + i = s1.pos * r + (i - e1) := by rw [hi.hpos]; omega
          rw [c3, lsbStream_at _ _ _ _ (by omega)]
          simp only [hin, c1]; simp
        · have c1 : ¬ (i + 0 ≤ 31 ∧ e1 + (31 - i - 0) ≤ 31) := by omega
          simp only [hin, c1]; simp
  rw [hword]
  simp only [Res.bind_ok]
  by_cases heq : s1.bleft = r
  · -- the draw was used up exactly
    have hr31 : r < 32 := by
      rcases Nat.lt_or_ge r 32 with h' | h'
      · exact h'
      · have : r = 32 := by omega
        have := h.h32 this
        omega
    have hmod : (P + 32) % r = 0 := by
      have : P + 32 = (s1.pos + 1) * r := by rw [Nat.add_mul, hi.hpos]; omega
      rw [this]; exact Nat.mul_mod_left _ _
    rw [if_pos heq, if_pos ⟨hr31, hmod⟩]
    refine ⟨0, _, rfl, ⟨by omega, by omega, ?_, by simp, ?_, by omega⟩⟩
    · simp only [Nat.add_mul, hi.hpos]; omega
    · simp [takeBits]
  · rw [if_neg heq]
    obtain ⟨w, hw, hwb⟩ := bWindow_lsb' (src s1.pos) (32 - r) (32 - s1.bleft - 1) (32 - r + s1.bleft) (by omega) (by omega) (by omega) (by omega) (by
      omega)
    rw [hw]
    simp only [Res.bind_ok]
    have hcond : ¬ (r < 32 ∧ (P + 32) % r = 0) := by
      rintro ⟨ha, hb⟩
      have e1lt : e1 < 32 := by omega
      have : P + 32 = s1.pos * r + (32 - e1) := by rw [hi.hpos]; omega
      rw [this, Nat.mul_comm, Nat.mul_add_mod, Nat.mod_eq_of_lt (by omega)] at hb
      omega
    rw [if_neg hcond]
    refine ⟨e1 + r - 32, _, rfl, ⟨by omega, ?_, ?_, ?_, ?_, fun _ => rfl⟩⟩
    · intro h32; have := h.h32 h32; omega
    · simp only [Nat.add_mul, hi.hpos]; omega
    · simp only; omega
    · simp only [add_zero_u]
      apply BitVec.eq_of_getLsbD_eq
      intro i hi32
      rw [hwb i hi32, takeBits_getLsbD]
      have e2 : ((32 : Int) - r + s1.bleft).toNat = 32 - r + (32 - e1) := by omega
      have e3 : ((32 : Int) - r).toNat = 32 - r := by omega
      have e4 : ((32 : Int) - s1.bleft - 1).toNat = e1 - 1 := by omega
      rw [e2, e3, e4]
      by_cases hin : i < e1 + r - 32
      · have c1 : i + (32 - r + (32 - e1)) ≤ 31 ∧ 32 - r + (31 - i - (32 - r + (32 - e1))) ≤ e1 - 1 := by omega
        have c2 : i + (32 - r + (32 - e1)) - (32 - r) = i + (32 - e1) := by omega
        have c3 : P + 32 + i = s1.pos * r + (i + (32 - e1)) := by rw [hi.hpos]; omega
        rw [c2, c3, lsbStream_at _ _ _ _ (by omega)]
        simp only [hin, c1, hi32]; simp
      · have c1 : ¬ (i + (32 - r + (32 - e1)) ≤ 31 ∧ 32 - r + (31 - i - (32 - r + (32 - e1))) ≤ e1 - 1) := by omega
        simp only [hin, c1]; simp

/-- The first call after start-up or reset. -/
theorem getUintRand_first (r : Nat) (src : Src) (hr32 : r ≤ 32) (s : URState)
    (hw : ∀ k i, r ≤ i → (src k).getLsbD i = false) (h : s.bleft = -1) :
    getUintRand r src s = getUintRand r src ⟨0, src s.pos, 32 - r, s.pos + 1⟩ ∧
    URInv r src (s.pos * r) r 0 ⟨0, src s.pos, 32 - r, s.pos + 1⟩ := by
  constructor
  · have h2 : ¬ ((32 : Int) - r = -1) := by omega
    unfold getUintRand
    simp only [h, if_true, h2, if_false]
  · refine ⟨by omega, fun h => h, ?_, by simp, ?_, by simp⟩
    · simp only [Nat.add_mul]; omega
    · simp only [add_zero_u]
      apply BitVec.eq_of_getLsbD_eq
      intro i hi
      rw [takeBits_getLsbD]
      by_cases hlt : i < r
      · rw [lsbStream_at _ _ _ _ hlt]; simp [hlt, hi]
      · rw [hw _ _ (by omega)]; simp [hlt]

/-- The words handed out: word `m` is the `m`-th 32-bit segment of the stream, plus the
previously returned word whenever the previous word ended exactly at the end of a draw of
fewer than 32 bits. -/
def urWord (r : Nat) (src : Src) (P0 : Nat) : Nat → UInt
  | 0 => takeBits (lsbStream r src) P0 32
  | m + 1 => takeBits (lsbStream r src) (P0 + 32 * (m + 1)) 32 +
      (if r < 32 ∧ (P0 + 32 * (m + 1)) % r = 0 then urWord r src P0 m else 0)

/-- `URState` after `m` words have been returned since the statics were (re)initialised at
draw number `p0`. -/
def URReach (r : Nat) (src : Src) (p0 : Nat) (m : Nat) (s : URState) : Prop :=
  match m with
  | 0 => s.bleft = -1 ∧ s.pos = p0
  | m + 1 => ∃ e, URInv r src (p0 * r + 32 * (m + 1)) e
      (if r < 32 ∧ (p0 * r + 32 * (m + 1)) % r = 0 then urWord r src (p0 * r) m else 0) s

theorem getUintRand_reach (r : Nat) (src : Src) (hr : 0 < r) (hr32 : r ≤ 32)
    (hw : ∀ k i, r ≤ i → (src k).getLsbD i = false) (p0 m : Nat) (s : URState)
    (h : URReach r src p0 m s) :
    ∃ s', getUintRand r src s = .ok (urWord r src (p0 * r) m, s') ∧ URReach r src p0 (m + 1) s' := by
  cases m with
  | zero =>
    obtain ⟨hb, hp⟩ := h
    obtain ⟨h1, h2⟩ := getUintRand_first r src hr32 s hw hb
    obtain ⟨e', s', h3, h4⟩ := getUintRand_step0 r src hr hr32 _ _ _ _ h2
    refine ⟨s', ?_, e', ?_⟩
    · rw [h1, h3, hp]; simp [urWord]
    · rw [hp] at h4
      simpa [urWord] using h4
  | succ m =>
    obtain ⟨e, h⟩ := h
    obtain ⟨e', s', h3, h4⟩ := getUintRand_step0 r src hr hr32 _ _ _ _ h
    refine ⟨s', ?_, e', ?_⟩
    · rw [h3, urWord]
    · have e1 : p0 * r + 32 * (m + 1) + 32 = p0 * r + 32 * (m + 1 + 1) := by omega
      rw [e1] at h4
      exact h4

end Dh
