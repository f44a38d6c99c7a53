import Verif.Proof.Bits
import Verif.Spec.Bits
set_option linter.unusedSimpArgs false
namespace Dh
open Spec

theorem ntupleLoop_spec (r : Nat) (bs : List UInt) (blen : Nat) (hr : 0 < r)
    (hblen : blen ≤ 32) (hw : ∀ x ∈ bs, ∀ i, r ≤ i → x.getLsbD i = false)
    (hlen : 0 < bs.length) (off : Nat) :
    ∀ (fuel q rlen : Nat) (result : UInt),
      blen ≤ rlen + fuel →
      off + rlen = (q + 1) * r →
      (∀ i < 32, result.getLsbD i = (decide (i < rlen) && cyclicBit r bs (off + i))) →
      ∃ v, ntupleLoop r bs bs.length blen fuel (bs.length - 1 - q % bs.length) rlen result = .ok v ∧
        ∀ i < blen, v.getLsbD i = cyclicBit r bs (off + i) := by
  intro fuel
  induction fuel with
  | zero =>
    intro q rlen result hf hq hres
    have : ¬ blen > rlen := by omega
    refine ⟨result, by rw [ntupleLoop]; simp [this], ?_⟩
    intro i hi
    rw [hres i (by omega)]
    have : i < rlen := by omega
    simp [this]
  | succ fuel ih =>
    intro q rlen result hf hq hres
    by_cases hc : blen > rlen
    · have hn : bs.length ≠ 0 := by omega
      have hidx : (if bs.length - 1 - q % bs.length = 0 then bs.length - 1
          else bs.length - 1 - q % bs.length - 1) = bs.length - 1 - (q + 1) % bs.length := by
        have hlt := Nat.mod_lt q hlen
        have hlt2 := Nat.mod_lt (q+1) hlen
        have e : (q + 1) % bs.length = if q % bs.length + 1 = bs.length then 0 else q % bs.length + 1 := by
          rw [Nat.add_mod]
          split
          · rename_i h
            by_cases h1 : bs.length = 1
            · rw [h1]; omega
            · rw [Nat.mod_eq_of_lt (a := 1) (by omega), h, Nat.mod_self]
          · rename_i h
            by_cases h1 : bs.length = 1
            · rw [h1] at hlt h; omega
            · rw [Nat.mod_eq_of_lt (a := 1) (by omega), Nat.mod_eq_of_lt (by omega)]
        rw [e]
        split <;> split <;> omega
      have hlt2 := Nat.mod_lt (q+1) hlen
      have hb : bs.length - 1 - (q + 1) % bs.length < bs.length := by omega
      have hstep : ntupleLoop r bs bs.length blen (fuel+1) (bs.length - 1 - q % bs.length) rlen result
          = ntupleLoop r bs bs.length blen fuel (bs.length - 1 - (q+1) % bs.length) (rlen + r)
            (result + shlLoop (bs[bs.length - 1 - (q + 1) % bs.length]) rlen) := by
        conv => lhs; rw [ntupleLoop]
        simp only [hc, if_true, hidx, rd_ok hb, Res.bind_ok]
      rw [hstep]
      apply ih (q+1) (rlen + r)
      · omega
      · rw [Nat.add_mul (q+1) 1 r, ← hq]; omega
      · intro i hi
        rw [shlLoop_eq]
        have hdis : ∀ j < 32, result.getLsbD j = true →
            ((bs[bs.length - 1 - (q + 1) % bs.length]) <<< rlen).getLsbD j = false := by
          intro j hj h
          rw [hres j hj] at h
          have : j < rlen := by
            rw [Bool.and_eq_true] at h
            exact of_decide_eq_true h.1
          simp [BitVec.getLsbD_shiftLeft, this]
        rw [add_getLsbD_disjoint hdis, hres i hi, BitVec.getLsbD_shiftLeft]
        by_cases h1 : i < rlen
        · have h2 : i < rlen + r := by omega
          simp [h1, h2]
        · by_cases h2 : i < rlen + r
          · have e1 : (off + i) / r = q + 1 := by
              have : off + i = (q + 1) * r + (i - rlen) := by omega
              rw [this, Nat.mul_comm, Nat.mul_add_div hr, Nat.div_eq_of_lt (by omega)]
            have e2 : (off + i) % r = i - rlen := by
              have : off + i = (q + 1) * r + (i - rlen) := by omega
              rw [this, Nat.mul_comm, Nat.mul_add_mod, Nat.mod_eq_of_lt (by omega)]
            have hb' : (q+1) % bs.length < bs.length := hlt2
            simp [h1, h2, hi, cyclicBit, e1, e2, List.getD_eq_getElem?_getD, List.getElem?_reverse, hb', hb]
          · have := hw _ (List.getElem_mem hb) (i - rlen) (by omega)
            simp [h1, h2, hi, this]
    · refine ⟨result, by rw [ntupleLoop]; simp [hc], ?_⟩
      intro i hi
      rw [hres i (by omega)]
      have : i < rlen := by omega
      simp [this]

theorem getBitNtuple_spec (r : Nat) (bs : List UInt) (blen boffset : Nat) (hr : 0 < r) (hr32 : r ≤ 32)
    (hw : ∀ x ∈ bs, ∀ i, r ≤ i → x.getLsbD i = false) (hb : 0 < blen)
    (ho : boffset < bs.length * r) :
    ∃ v, getBitNtuple r bs bs.length blen boffset = .ok v ∧
      ∀ i, v.getLsbD i = (decide (i < min blen 32) && cyclicBit r bs (boffset + i)) := by
  have hlen : 0 < bs.length := by
    rcases Nat.eq_zero_or_pos bs.length with h | h
    · rw [h] at ho; omega
    · exact h
  have hq : boffset / r < bs.length := by
    rw [Nat.div_lt_iff_lt_mul hr]; exact ho
  have hmod := Nat.mod_lt boffset hr
  have hdm := Nat.div_add_mod boffset r
  unfold getBitNtuple
  have hr0 : r ≠ 0 := by omega
  have hnlt : ¬ bs.length < boffset / r + 1 := by omega
  have hbl : (if blen > 32 then 32 else blen) = min blen 32 := by split <;> omega
  have hbl0 : min blen 32 ≠ 0 := by omega
  simp only [hr0, hnlt, if_false, hbl, hbl0]
  have hidx : bs.length - boffset / r - 1 < bs.length := by
    generalize boffset / r = w at *
    omega
  rw [rd_ok hidx]
  simp only [Res.bind_ok]
  have hmq : boffset / r % bs.length = boffset / r := Nat.mod_eq_of_lt hq
  have hix2 : bs.length - boffset / r - 1 = bs.length - 1 - boffset / r % bs.length := by
    rw [hmq]; omega
  obtain ⟨v, hv, hvb⟩ := ntupleLoop_spec r bs (min blen 32) hr (by omega) hw hlen boffset 32
    (boffset / r) (r - boffset % r) (shrLoop (bs[bs.length - boffset / r - 1]) (boffset % r))
    (by omega)
    (by rw [Nat.add_mul, Nat.mul_comm (boffset / r)]; omega)
    (by
      intro i hi
      rw [shrLoop_eq, BitVec.getLsbD_ushiftRight]
      by_cases h : i < r - boffset % r
      · have e1 : (boffset + i) / r = boffset / r := by
          have : boffset + i = r * (boffset / r) + (boffset % r + i) := by omega
          rw [this, Nat.mul_add_div hr, Nat.div_eq_of_lt (a := boffset % r + i) (by omega)]; rfl
        have e2 : (boffset + i) % r = boffset % r + i := by
          have : boffset + i = r * (boffset / r) + (boffset % r + i) := by omega
          rw [this, Nat.mul_add_mod, Nat.mod_eq_of_lt (by omega)]
        have : bs.length - boffset / r - 1 = bs.length - 1 - boffset / r := by omega
        simp [h, cyclicBit, e1, e2, hmq, List.getD_eq_getElem?_getD, List.getElem?_reverse, hq, this]
      · have := hw _ (List.getElem_mem hidx) (boffset % r + i) (by omega)
        simp [h, this])
  rw [← hix2] at hv
  rw [hv]
  refine ⟨_, rfl, ?_⟩
  intro i
  rw [BitVec.getLsbD_and, onesLoop_getLsbD]
  by_cases h : i < min blen 32
  · have h1 : i < 32 := by omega
    have h2 : i ≤ min blen 32 - 1 := by omega
    have h3 : i < blen := by omega
    rw [hvb i h]; simp [h, h1, h2, h3]
  · have h2 : ¬ (i ≤ min blen 32 - 1) := by omega
    simp [h, h2]

end Dh
