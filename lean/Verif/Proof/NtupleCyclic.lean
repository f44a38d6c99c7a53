import Verif.Proof.Window
import Verif.Model.NtupleCyclic
set_option linter.unusedSimpArgs false
namespace Dh
open Spec

theorem u32_toNat (n : Nat) (h : n ≤ 31) : (u32 (n : Int)).toNat = n := by
  unfold u32
  rw [BitVec.toNat_ofInt]
  omega

theorem bWindow_lsb (x : UInt) (a b o : Nat) (hab : a ≤ b) (hb : b ≤ 31) (ho : o ≤ 31) :
    ∃ v, bWindow x (u32 a) (u32 b) (u32 o) = .ok v ∧
      ∀ i < 32, v.getLsbD i = (decide (i + o ≤ 31 ∧ a + (31 - i - o) ≤ b) && x.getLsbD (i + o - a)) := by
  have ea := u32_toNat a (by omega)
  have eb := u32_toNat b (by omega)
  have eo := u32_toNat o (by omega)
  obtain ⟨v, hv, hvb⟩ := bWindow_ok x (u32 a) (u32 b) (u32 o) (by omega) (by omega) (by omega)
  refine ⟨v, hv, ?_⟩
  intro i hi
  have := hvb (31 - i) (by omega)
  rw [ea, eb, eo] at this
  simp only [msb] at this
  have e1 : 31 - (31 - i) = i := by omega
  have e2 : 31 - i < 32 := by omega
  rw [e1] at this
  simp only [e2, decide_true, Bool.true_and] at this
  rw [this]
  by_cases hc : o ≤ 31 - i ∧ a + (31 - i - o) ≤ b
  · have hc' : i + o ≤ 31 ∧ a + (31 - i - o) ≤ b := by omega
    have e3 : 31 - (a + (31 - i - o)) = i + o - a := by omega
    have e4 : a + (31 - i - o) < 32 := by omega
    rw [e3]
    simp only [hc, hc', e4]; simp
  · have hc' : ¬ (i + o ≤ 31 ∧ a + (31 - i - o) ≤ b) := by omega
    simp only [hc, hc']; simp

/-- Invariant on the output: exactly the `c` rightmost wanted bits `g` are in place. -/
def OutInv (jlen : Nat) (g : Nat → Bool) (c : Nat) (out : List UInt) : Prop :=
  out.length = jlen ∧ ∀ J < jlen, ∀ b < 32,
    (out.getD (jlen - 1 - J) 0).getLsbD b = (decide (32 * J + b < c) && g (32 * J + b))

theorem OutInv.zero (jlen : Nat) (g : Nat → Bool) : OutInv jlen g 0 (List.replicate jlen 0) := by
  refine ⟨by simp, ?_⟩
  intro J hJ b hb
  simp [List.getD_eq_getElem?_getD, List.getElem?_replicate]
  split <;> simp

theorem OutInv.step {jlen : Nat} {g : Nat → Bool} {c : Nat} {out : List UInt} (h : OutInv jlen g c out)
    {J d : Nat} (hJ : J < jlen) (hc1 : 32 * J ≤ c) (hc2 : c + d ≤ 32 * J + 32) {w : UInt}
    (hw : ∀ b < 32, w.getLsbD b = (decide (c ≤ 32 * J + b ∧ 32 * J + b < c + d) && g (32 * J + b))) :
    OutInv jlen g (c + d) (out.set (jlen - 1 - J) (out.getD (jlen - 1 - J) 0 + w)) := by
  refine ⟨by simp [h.1], ?_⟩
  intro J' hJ' b hb
  by_cases hJJ : J' = J
  · subst hJJ
    rw [List.getD_eq_getElem?_getD, List.getElem?_set_self (by rw [h.1]; omega)]
    simp only [Option.getD_some]
    rw [add_getLsbD_disjoint, h.2 J' hJ' b hb, hw b hb]
    · by_cases h1 : 32 * J' + b < c
      · have h2 : ¬ (c ≤ 32 * J' + b ∧ 32 * J' + b < c + d) := by omega
        have h3 : 32 * J' + b < c + d := by omega
        simp only [h1, h2, h3]; simp
      · by_cases h3 : 32 * J' + b < c + d
        · have h2 : (c ≤ 32 * J' + b ∧ 32 * J' + b < c + d) := by omega
          simp only [h1, h2, h3]; simp
        · have h2 : ¬ (c ≤ 32 * J' + b ∧ 32 * J' + b < c + d) := by omega
          simp only [h1, h2, h3]; simp
    · intro b' hb' hx
      rw [h.2 J' hJ' b' hb'] at hx
      rw [hw b' hb']
      rw [Bool.and_eq_true] at hx
      have := of_decide_eq_true hx.1
      have h2 : ¬ (c ≤ 32 * J' + b' ∧ 32 * J' + b' < c + d) := by omega
      simp only [h2]; simp
  · have hne : jlen - 1 - J ≠ jlen - 1 - J' := by omega
    rw [List.getD_eq_getElem?_getD, List.getElem?_set_ne hne, ← List.getD_eq_getElem?_getD, h.2 J' hJ' b hb]
    by_cases h1 : J' < J
    · have a1 : 32 * J' + b < c := by omega
      have a2 : 32 * J' + b < c + d := by omega
      simp only [a1, a2]
    · have a1 : ¬ 32 * J' + b < c := by omega
      have a2 : ¬ 32 * J' + b < c + d := by omega
      simp only [a1, a2]

theorem OutInv.row_zero {jlen : Nat} {g : Nat → Bool} {c : Nat} {out : List UInt} (h : OutInv jlen g c out)
    {J : Nat} (hJ : J < jlen) (hc : c = 32 * J) : out.getD (jlen - 1 - J) 0 = 0 := by
  apply BitVec.eq_of_getLsbD_eq
  intro b hb
  rw [h.2 J hJ b hb]
  have : ¬ 32 * J + b < c := by omega
  simp [this]

section
variable (input : List UInt) (hlen : 0 < input.length) (N jlen : Nat)

/-- The `t`-th wanted bit counted from the right: stream bit `N-1-t`. -/
def gBit (t : Nat) : Bool := msbStream input (N - 1 - t)

include hlen in
/-- One window copy: source line `L`, source positions `a..b` moved so that position `b`
lands on bit `e` of the output word `J`. -/
theorem addWindow_ok {out : List UInt} {c J L a b o : Nat}
    (h : OutInv jlen (gBit input N) c out) (hJ : J < jlen)
    (hab : a ≤ b) (hb : b ≤ 31) (ho : o + (b - a) ≤ 31)
    (hc : c = 32 * J + (31 - (o + (b - a))))
    (hpos : 32 * L + b + c = N - 1) (hN : 0 < N) :
    ∃ out', addWindow input out (L % input.length : Nat) ((jlen : Int) - 1 - J) a b o = .ok out' ∧
      OutInv jlen (gBit input N) (c + (b - a + 1)) out' := by
  have hi : L % input.length < input.length := Nat.mod_lt _ hlen
  obtain ⟨w, hw, hwb⟩ := bWindow_lsb (input[L % input.length]) a b o hab hb (by omega)
  have hjn : ((jlen : Int) - 1 - J).toNat = jlen - 1 - J := by omega
  have hjlt : jlen - 1 - J < out.length := by rw [h.1]; omega
  refine ⟨out.set (jlen - 1 - J) (out.getD (jlen - 1 - J) 0 + w), ?_, ?_⟩
  · unfold addWindow rdI wrI wr
    have n1 : ¬ ((L % input.length : Nat) : Int) < 0 := by omega
    have n2 : ¬ (jlen : Int) - 1 - J < 0 := by omega
    simp only [n1, n2, if_false, Int.toNat_natCast, rd_ok hi, Res.bind_ok, hw, hjn, rd_ok hjlt, hjlt, if_true]
    rw [List.getD_eq_getElem?_getD, List.getElem?_eq_getElem hjlt]; rfl
  · apply h.step hJ (by omega) (by omega)
    intro i hi32
    rw [hwb i hi32]
    by_cases hr : i + o ≤ 31 ∧ a + (31 - i - o) ≤ b
    · have hr' : c ≤ 32 * J + i ∧ 32 * J + i < c + (b - a + 1) := by omega
      simp only [hr, hr']
      unfold gBit msbStream
      have e1 : (N - 1 - (32 * J + i)) / 32 = L := by omega
      have e2 : (N - 1 - (32 * J + i)) % 32 = 31 - (i + o - a) := by omega
      rw [e1, e2, List.getD_eq_getElem?_getD, List.getElem?_eq_getElem hi]
      have e3 : 31 - (31 - (i + o - a)) = i + o - a := by omega
      have e4 : 31 - (i + o - a) < 32 := by omega
      simp only [msb, e3, e4]; simp
    · have hr' : ¬ (c ≤ 32 * J + i ∧ 32 * J + i < c + (b - a + 1)) := by omega
      simp only [hr, hr']; simp

include hlen in
theorem setWindow_ok {out : List UInt} {c J L a b o : Nat}
    (h : OutInv jlen (gBit input N) c out) (hJ : J < jlen)
    (hab : a ≤ b) (hb : b ≤ 31) (ho : o + (b - a) = 31)
    (hc : c = 32 * J)
    (hpos : 32 * L + b + c = N - 1) (hN : 0 < N) :
    ∃ out', setWindow input out (L % input.length : Nat) ((jlen : Int) - 1 - J) a b o = .ok out' ∧
      OutInv jlen (gBit input N) (c + (b - a + 1)) out' := by
  obtain ⟨out', h1, h2⟩ := addWindow_ok input hlen N jlen (o := o) h hJ hab hb (by omega) (by omega) hpos hN
  refine ⟨out', ?_, h2⟩
  rw [← h1]
  have hi : L % input.length < input.length := Nat.mod_lt _ hlen
  have hjn : ((jlen : Int) - 1 - J).toNat = jlen - 1 - J := by omega
  have hjlt : jlen - 1 - J < out.length := by rw [h.1]; omega
  have hz := h.row_zero hJ hc
  rw [List.getD_eq_getElem?_getD, List.getElem?_eq_getElem hjlt] at hz
  simp only [Option.getD_some] at hz
  unfold addWindow setWindow rdI wrI
  have n1 : ¬ ((L % input.length : Nat) : Int) < 0 := by omega
  have n2 : ¬ (jlen : Int) - 1 - J < 0 := by omega
  simp only [n1, n2, if_false, Int.toNat_natCast, rd_ok hi, Res.bind_ok, hjn, rd_ok hjlt, hz]
  congr 1
  funext w
  simp

include hlen in
theorem wrap_idx (L : Nat) :
    (if ((((L + 1) % input.length : Nat) : Int) - 1 < 0) then (input.length : Int) - 1
      else (((L + 1) % input.length : Nat) : Int) - 1) = ((L % input.length : Nat) : Int) := by
  have h1 := Nat.mod_lt L hlen
  have h2 := Nat.mod_lt (L+1) hlen
  by_cases h : (L + 1) % input.length = 0
  · have : L % input.length = input.length - 1 := by
      have := Nat.div_add_mod (L+1) input.length
      have h3 := Nat.div_add_mod L input.length
      rw [h] at this
      have e : L = input.length * ((L+1)/input.length - 1) + (input.length - 1) := by
        have hpos : 0 < (L+1)/input.length := by
          rcases Nat.eq_zero_or_pos ((L+1)/input.length) with h0 | h0
          · rw [h0] at this; omega
          · exact h0
        obtain ⟨m, hm⟩ : ∃ m, (L+1)/input.length = m + 1 := ⟨(L+1)/input.length - 1, by omega⟩
        rw [hm] at this ⊢
        rw [Nat.mul_add] at this
        simp only [Nat.add_sub_cancel]; omega
      rw [e, Nat.mul_add_mod, Nat.mod_eq_of_lt (by omega)]
    rw [h, if_pos (by omega)]
    omega
  · rw [if_neg (by omega)]
    have : (L + 1) % input.length = L % input.length + 1 := by
      have h3 := Nat.div_add_mod L input.length
      by_cases h4 : L % input.length + 1 = input.length
      · exfalso; apply h
        have : L + 1 = input.length * (L / input.length + 1) := by rw [Nat.mul_add]; omega
        rw [this]; exact Nat.mul_mod_right _ _
      · have : L + 1 = input.length * (L / input.length) + (L % input.length + 1) := by omega
        rw [this, Nat.mul_add_mod, Nat.mod_eq_of_lt (by omega)]
    omega

/-! ### The loop, for the three alignments in which it succeeds

`offset = 32*O + bs`, the last wanted bit is bit `be-1` of line `K`. -/

include hlen in
/-- Alignment 1: the tuple ends exactly at the end of a line. -/
theorem loop_full {O K bs n : Nat} (hbs : bs ≤ 31) (hOK : O ≤ K) (hn : n = 32 * (K - O) + 32 - bs)
    (hN : N = 32 * K + 32) (hfit : n ≤ 32 * jlen) :
    ∀ (fuel J : Nat) (out : List UInt), J ≤ K - O → K - O - J < fuel →
      OutInv jlen (gBit input N) (32 * J) out →
      ∃ out', cyclicLoop input input.length bs 32 (32 - bs) (32 - bs) fuel ((K - J) % input.length : Nat)
          ((jlen : Int) - 1 - J) ((n : Int) - 32 * J) out = .ok out' ∧ OutInv jlen (gBit input N) n out' := by
  intro fuel
  induction fuel with
  | zero => intro J out hJ hf; omega
  | succ fuel ih =>
    intro J out hJ hf hinv
    rw [cyclicLoop]
    rw [if_pos (by omega)]
    simp only []
    by_cases hlast : J = K - O
    · rw [if_pos (by omega)]
      obtain ⟨out', h1, h2⟩ := setWindow_ok input hlen N jlen (a := bs) (b := 31) (o := bs) (L := K - J) (J := J) hinv
        (by omega) (by omega) (by omega) (by omega) rfl (by omega) (by omega)
      refine ⟨out', ?_, ?_⟩
      · rw [← h1]; congr 1 <;> omega
      · have : n = 32 * J + (31 - bs + 1) := by omega
        rw [this]; exact h2
    · rw [if_neg (by omega)]
      obtain ⟨out1, h1, h2⟩ := addWindow_ok input hlen N jlen (a := 0) (b := 31) (o := 0) (L := K - J) (J := J) hinv
        (by omega) (by omega) (by omega) (by omega) (by omega) (by omega) (by omega)
      have hR : addWindow input out (((K - J) % input.length : Nat) : Int) ((jlen : Int) - 1 - J) 0 (32 - 1) (32 - 32) = .ok out1 := by
        rw [← h1]; rfl
      rw [hR]
      simp only [Res.bind_ok]
      have hw := wrap_idx input hlen (K - (J + 1))
      have hKJ : K - (J + 1) + 1 = K - J := by omega
      rw [hKJ] at hw
      rw [hw]
      have hc1 : 32 * J + (31 - 0 + 1) = 32 * (J + 1) := by omega
      rw [hc1] at h2
      by_cases hpen : J + 1 = K - O
      · rw [if_pos ⟨by omega, trivial⟩]
        obtain ⟨out2, h3, h4⟩ := addWindow_ok input hlen N jlen (a := bs) (b := 31) (o := bs) (L := K - (J+1)) h2
          (J := J + 1) (by omega) (by omega) (by omega) (by omega) (by omega) (by omega) (by omega)
        refine ⟨out2, ?_, ?_⟩
        · rw [← h3]; congr 1 <;> omega
        · have : n = 32 * (J + 1) + (31 - bs + 1) := by omega
          rw [this]; exact h4
      · rw [if_neg (by omega), if_neg (by omega), if_pos (by omega), if_neg (by simp)]
        obtain ⟨out2, h3, h4⟩ := ih (J+1) out1 (by omega) (by omega) h2
        refine ⟨out2, ?_, h4⟩
        rw [← h3]; congr 1 <;> omega

include hlen in
/-- Alignment 2: the tuple starts at the beginning of a line and ends inside one. -/
theorem loop_start {O K be n : Nat} (hbe : be ≤ 31) (hbe0 : 1 ≤ be) (hOK : O ≤ K) (hn : n = 32 * (K - O) + be)
    (hN : N = 32 * K + be) (hfit : n ≤ 32 * jlen) :
    ∀ (fuel J : Nat) (out : List UInt), J ≤ K - O → K - O - J < fuel →
      OutInv jlen (gBit input N) (32 * J) out →
      ∃ out', cyclicLoop input input.length 0 be (be - 0) (32 - 0) fuel ((K - J) % input.length : Nat)
          ((jlen : Int) - 1 - J) ((n : Int) - 32 * J) out = .ok out' ∧ OutInv jlen (gBit input N) n out' := by
  intro fuel
  induction fuel with
  | zero => intro J out hJ hf; omega
  | succ fuel ih =>
    intro J out hJ hf hinv
    rw [cyclicLoop]
    rw [if_pos (by omega)]
    simp only []
    by_cases hlast : J = K - O
    · rw [if_pos (by omega)]
      obtain ⟨out', h1, h2⟩ := setWindow_ok input hlen N jlen (a := 0) (b := be - 1) (o := 32 - be) (L := K - J) (J := J) hinv
        (by omega) (by omega) (by omega) (by omega) rfl (by omega) (by omega)
      refine ⟨out', ?_, ?_⟩
      · rw [← h1]; congr 1 <;> omega
      · have : n = 32 * J + (be - 1 - 0 + 1) := by omega
        rw [this]; exact h2
    · rw [if_neg (by omega)]
      obtain ⟨out1, h1, h2⟩ := addWindow_ok input hlen N jlen (a := 0) (b := be - 1) (o := 32 - be) (L := K - J) (J := J) hinv
        (by omega) (by omega) (by omega) (by omega) (by omega) (by omega) (by omega)
      have hR : addWindow input out (((K - J) % input.length : Nat) : Int) ((jlen : Int) - 1 - J) 0 (be - 1) (32 - be) = .ok out1 := by
        rw [← h1]; congr 1 <;> omega
      rw [hR]
      simp only [Res.bind_ok]
      have hw := wrap_idx input hlen (K - (J + 1))
      have hKJ : K - (J + 1) + 1 = K - J := by omega
      rw [hKJ] at hw
      rw [hw]
      rw [if_neg (by omega), if_neg (by omega), if_pos (by omega), if_pos (by omega)]
      obtain ⟨out2, h3, h4⟩ := addWindow_ok input hlen N jlen (a := be) (b := 31) (o := 0) (L := K - (J+1)) h2
        (J := J) (by omega) (by omega) (by omega) (by omega) (by omega) (by omega) (by omega)
      have hL : addWindow input out1 (((K - (J+1)) % input.length : Nat) : Int) ((jlen : Int) - 1 - J) be 31 0 = .ok out2 := by
        rw [← h3]; rfl
      rw [hL]
      simp only [Res.bind_ok]
      have hc1 : 32 * J + (be - 1 - 0 + 1) + (31 - be + 1) = 32 * (J + 1) := by omega
      rw [hc1] at h4
      obtain ⟨out3, h5, h6⟩ := ih (J+1) out2 (by omega) (by omega) h4
      refine ⟨out3, ?_, h6⟩
      rw [← h5]; congr 1 <;> omega

/-- What happens for a tuple that starts inside a line (`bs > 0`) and ends inside a later
one: the last step is Rule 2c, which succeeds iff `be ≤ bs`. -/
def endResult (bs be n : Nat) (r : Res (List UInt)) : Prop :=
  if be ≤ bs then ∃ out', r = .ok out' ∧ OutInv jlen (gBit input N) n out' else r = .exit

include hlen in
/-- Alignment 3: the tuple starts inside a line and ends inside a later line. -/
theorem loop_inner {O K bs be n : Nat} (hbe : be ≤ 31) (hbe0 : 1 ≤ be) (hbs : bs ≤ 31) (hbs0 : 1 ≤ bs)
    (hOK : O < K) (hn : n = 32 * (K - O) + be - bs)
    (hN : N = 32 * K + be) (hfit : n ≤ 32 * jlen) :
    ∀ (fuel J : Nat) (out : List UInt), J < K - O → K - O - J < fuel + 1 →
      OutInv jlen (gBit input N) (32 * J) out →
      endResult input N jlen bs be n
        (cyclicLoop input input.length bs be (be - bs) (32 - bs) fuel ((K - J) % input.length : Nat)
          ((jlen : Int) - 1 - J) ((n : Int) - 32 * J) out) := by
  intro fuel
  induction fuel with
  | zero => intro J out hJ hf; omega
  | succ fuel ih =>
    intro J out hJ hf hinv
    rw [cyclicLoop]
    rw [if_pos (by omega)]
    simp only []
    rw [if_neg (by omega)]
    obtain ⟨out1, h1, h2⟩ := addWindow_ok input hlen N jlen (a := 0) (b := be - 1) (o := 32 - be) (L := K - J) (J := J) hinv
      (by omega) (by omega) (by omega) (by omega) (by omega) (by omega) (by omega)
    have hR : addWindow input out (((K - J) % input.length : Nat) : Int) ((jlen : Int) - 1 - J) 0 (be - 1) (32 - be) = .ok out1 := by
      rw [← h1]; congr 1 <;> omega
    rw [hR]
    simp only [Res.bind_ok]
    have hw := wrap_idx input hlen (K - (J + 1))
    have hKJ : K - (J + 1) + 1 = K - J := by omega
    rw [hKJ] at hw
    rw [hw]
    rw [if_neg (by omega)]
    by_cases hpen : J + 1 = K - O
    · rw [if_pos (by omega)]
      unfold endResult
      by_cases hbb : be ≤ bs
      · rw [if_pos hbb]
        obtain ⟨out2, h3, h4⟩ := addWindow_ok input hlen N jlen (a := bs) (b := 31) (o := bs - be) (L := K - (J+1)) h2
          (J := J) (by omega) (by omega) (by omega) (by omega) (by omega) (by omega) (by omega)
        refine ⟨out2, ?_, ?_⟩
        · rw [← h3]; congr 1; omega
        · have : n = 32 * J + (be - 1 - 0 + 1) + (31 - bs + 1) := by omega
          rw [this]; exact h4
      · rw [if_neg hbb]
        have hi : (K - (J+1)) % input.length < input.length := Nat.mod_lt _ hlen
        unfold addWindow rdI
        have n1 : ¬ (((K - (J+1)) % input.length : Nat) : Int) < 0 := by omega
        simp only [n1, if_false, Int.toNat_natCast, rd_ok hi, Res.bind_ok]
        rw [bWindow_exit]
        · rfl
        · right; right
          unfold u32
          rw [BitVec.toNat_ofInt]
          omega
    · rw [if_neg (by omega), if_pos (by omega), if_pos (by omega)]
      obtain ⟨out2, h3, h4⟩ := addWindow_ok input hlen N jlen (a := be) (b := 31) (o := 0) (L := K - (J+1)) h2
        (J := J) (by omega) (by omega) (by omega) (by omega) (by omega) (by omega) (by omega)
      have hL : addWindow input out1 (((K - (J+1)) % input.length : Nat) : Int) ((jlen : Int) - 1 - J) be 31 0 = .ok out2 := by
        rw [← h3]; rfl
      rw [hL]
      simp only [Res.bind_ok]
      have hc1 : 32 * J + (be - 1 - 0 + 1) + (31 - be + 1) = 32 * (J + 1) := by omega
      rw [hc1] at h4
      have h5 := ih (J+1) out2 (by omega) (by omega) h4
      have e : cyclicLoop input input.length bs be (be - bs) (32 - bs) fuel ((K - (J+1)) % input.length : Nat)
          ((jlen : Int) - 1 - (J+1 : Nat)) ((n : Int) - 32 * (J+1 : Nat)) out2 =
          cyclicLoop input input.length bs be (be - bs) (32 - bs) fuel ((K - (J+1)) % input.length : Nat)
          ((jlen : Int) - 1 - J - 1) ((n : Int) - 32 * J - be - (32 - be)) out2 := by
        congr 1 <;> omega
      rw [e] at h5
      exact h5
end

end Dh
