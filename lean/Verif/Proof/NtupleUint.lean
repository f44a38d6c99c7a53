import Verif.Proof.Bits
set_option linter.unusedSimpArgs false
namespace Dh

theorem ntupleUintLoop_spec (w : Nat) (x : UInt) (n off : Nat) (hw : 0 < w) (hn : n ≤ 32)
    (hx : ∀ i, w ≤ i → x.getLsbD i = false) :
    ∀ (fuel q len : Nat) (result : UInt),
      n ≤ len + fuel → off + len = q * w →
      (∀ i < 32, result.getLsbD i = (decide (i < len) && x.getLsbD ((off + i) % w))) →
      ∃ v, ntupleUintLoop w x n fuel len result = .ok v ∧
        ∀ i < n, v.getLsbD i = x.getLsbD ((off + i) % w) := by
  intro fuel
  induction fuel with
  | zero =>
    intro q len result hf hq hres
    have : ¬ len < n := by omega
    refine ⟨result, by rw [ntupleUintLoop]; simp [this], ?_⟩
    intro i hi
    have h2 : i < len := by omega
    rw [hres i (by omega)]; simp [h2]
  | succ fuel ih =>
    intro q len result hf hq hres
    by_cases hc : len < n
    · have hstep : ntupleUintLoop w x n (fuel+1) len result
          = ntupleUintLoop w x n fuel (len + w) (result ||| (x <<< len)) := by
        conv => lhs; rw [ntupleUintLoop]
        simp [hc, shl, show len < 32 by omega]
      rw [hstep]
      apply ih (q+1)
      · omega
      · rw [Nat.add_mul, ← hq]; omega
      · intro i hi
        rw [BitVec.getLsbD_or, hres i hi, BitVec.getLsbD_shiftLeft]
        by_cases h1 : i < len
        · simp [h1, show i < len + w by omega]
        · by_cases h2 : i < len + w
          · have e : (off + i) % w = i - len := by
              have : off + i = w * q + (i - len) := by rw [Nat.mul_comm, ← hq]; omega
              rw [this, Nat.mul_add_mod, Nat.mod_eq_of_lt (by omega)]
            simp only [h1, h2, hi, e]; simp
          · simp only [h1, h2, hi, hx (i - len) (by omega)]; simp
    · refine ⟨result, by rw [ntupleUintLoop]; simp [hc], ?_⟩
      intro i hi
      have h2 : i < len := by omega
      rw [hres i (by omega)]; simp [h2]

theorem getBitNtupleFromUint_spec (r : Nat) (x mask : UInt) (n off : Nat) (hr : 0 < r) (hr32 : r ≤ 32)
    (hn : n ≤ 32) (hx : ∀ i, r ≤ i → x.getLsbD i = false)
    (hm : ∀ i, mask.getLsbD i = decide (i < n)) :
    ∃ v, getBitNtupleFromUint r x n mask off = .ok v ∧
      ∀ i, v.getLsbD i = (decide (i < n) && x.getLsbD ((off + i) % r)) := by
  have hmod := Nat.mod_lt off hr
  have hdm := Nat.div_add_mod off r
  have hoff : ∀ i, (off + i) % r = (off % r + i) % r := by intro i; rw [Nat.mod_add_mod]
  unfold getBitNtupleFromUint
  rw [if_neg (by omega)]
  simp only [shr, if_pos (show off % r < 32 by omega), Res.bind_ok]
  split
  · rename_i hle
    refine ⟨_, rfl, ?_⟩
    intro i
    rw [BitVec.getLsbD_and, BitVec.getLsbD_ushiftRight, hm]
    by_cases h : i < n
    · rw [hoff, Nat.mod_eq_of_lt (a := off % r + i) (by omega)]; simp [h]
    · simp [h]
  · rename_i hgt
    obtain ⟨v, hv, hvb⟩ := ntupleUintLoop_spec r x n off hr hn hx 32 (off / r + 1) (r - off % r) (x >>> (off % r))
      (by omega)
      (by rw [Nat.add_mul, Nat.mul_comm (off / r)]; omega)
      (by
        intro i hi
        rw [BitVec.getLsbD_ushiftRight]
        by_cases h : i < r - off % r
        · rw [hoff, Nat.mod_eq_of_lt (a := off % r + i) (by omega)]; simp [h]
        · rw [hx _ (by omega)]; simp [h])
    rw [hv]
    refine ⟨_, rfl, ?_⟩
    intro i
    rw [BitVec.getLsbD_and, hm]
    by_cases h : i < n
    · rw [hvb i h]; simp [h]
    · simp [h]

theorem getBitNtupleFromWholeUint_spec (x mask : UInt) (n off : Nat)
    (hn : n ≤ 32) (hoff : off < 32)
    (hm : ∀ i, mask.getLsbD i = decide (i < n)) :
    ∃ v, getBitNtupleFromWholeUint x n mask off = .ok v ∧
      ∀ i, v.getLsbD i = (decide (i < n) && x.getLsbD ((off + i) % 32)) := by
  have hx : ∀ i, 32 ≤ i → x.getLsbD i = false := fun i hi => BitVec.getLsbD_of_ge _ _ hi
  have h := getBitNtupleFromUint_spec 32 x mask n off (by omega) (by omega) hn hx hm
  unfold getBitNtupleFromUint at h
  rw [if_neg (by omega)] at h
  simp only [Nat.mod_eq_of_lt hoff] at h
  exact h

end Dh
