import Verif.Model.Bits
/-
Helper lemmas about the word-level bit routines.
-/
set_option linter.unusedSimpArgs false
namespace Dh

theorem shrLoop_eq (x : UInt) (k : Nat) : shrLoop x k = x >>> k := by
  induction k with
  | zero => simp [shrLoop]
  | succ k ih => rw [shrLoop, ih, ← BitVec.shiftRight_add]

theorem shlLoop_eq (x : UInt) (k : Nat) : shlLoop x k = x <<< k := by
  induction k with
  | zero => simp [shlLoop]
  | succ k ih => rw [shlLoop, ih, ← BitVec.shiftLeft_add]

theorem onesLoop_getLsbD (k i : Nat) :
    (onesLoop k).getLsbD i = (decide (i ≤ k) && decide (i < 32)) := by
  induction k generalizing i with
  | zero =>
    rcases i with _ | i
    · decide
    · simp [onesLoop, BitVec.getLsbD_one]
  | succ k ih =>
    have hd : (onesLoop k <<< 1) &&& (1 : UInt) = 0 := by
      apply BitVec.eq_of_getLsbD_eq
      intro j hj
      rcases j with _ | j <;> simp [BitVec.getLsbD_one]
    rw [onesLoop, BitVec.add_eq_or_of_and_eq_zero _ _ hd]
    rcases i with _ | i
    · simp [BitVec.getLsbD_one]
    · by_cases h : i + 1 < 32
      · have h' : i < 32 := by omega
        have := ih i
        rw [BitVec.getLsbD_eq_getElem h'] at this
        simp [this, BitVec.getLsbD_one, h, h']
      · simp [h, BitVec.getLsbD_one]

/-- Adding words with disjoint bits is bitwise or. -/
theorem add_getLsbD_disjoint {x y : UInt}
    (h : ∀ j < 32, x.getLsbD j = true → y.getLsbD j = false) (i : Nat) :
    (x + y).getLsbD i = (x.getLsbD i || y.getLsbD i) := by
  have hd : x &&& y = 0 := by
    apply BitVec.eq_of_getLsbD_eq
    intro j hj
    cases hx : x.getLsbD j <;> simp [hx]
    exact h j hj hx
  rw [BitVec.add_eq_or_of_and_eq_zero _ _ hd, BitVec.getLsbD_or]

end Dh
