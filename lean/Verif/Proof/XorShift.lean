import Verif.Basic
/-
Injectivity of xorshift steps, bit by bit.
-/
namespace Dh

theorem xorshl_inj {w : Nat} (k : Nat) (hk : 0 < k) (x y : BitVec w) (h : x ^^^ (x <<< k) = y ^^^ (y <<< k)) : x = y := by
  have key : ∀ i, x.getLsbD i = y.getLsbD i := by
    intro i
    induction i using Nat.strongRecOn with
    | ind i ih =>
      have hi := congrArg (fun b => b.getLsbD i) h
      simp only [BitVec.getLsbD_xor, BitVec.getLsbD_shiftLeft] at hi
      by_cases hw : i < w
      · by_cases hik : i < k
        · simpa [hw, hik] using hi
        · have := ih (i - k) (by omega)
          simp only [hw, decide_true, Bool.true_and, hik, decide_false, Bool.not_false, this] at hi
          simpa using hi
      · rw [BitVec.getLsbD_of_ge _ _ (by omega), BitVec.getLsbD_of_ge _ _ (by omega)]
  apply BitVec.eq_of_getLsbD_eq
  intro i _
  exact key i

theorem xorshr_inj {w : Nat} (k : Nat) (hk : 0 < k) (x y : BitVec w) (h : x ^^^ (x >>> k) = y ^^^ (y >>> k)) : x = y := by
  have key : ∀ n i, w ≤ i + n → x.getLsbD i = y.getLsbD i := by
    intro n
    induction n with
    | zero =>
      intro i hi
      rw [BitVec.getLsbD_of_ge _ _ (by omega), BitVec.getLsbD_of_ge _ _ (by omega)]
    | succ n ih =>
      intro i hi
      have h1 := congrArg (fun b => b.getLsbD i) h
      simp only [BitVec.getLsbD_xor, BitVec.getLsbD_ushiftRight] at h1
      have := ih (k + i) (by omega)
      rw [this] at h1
      simpa using h1
  apply BitVec.eq_of_getLsbD_eq
  intro i _
  exact key w i (by omega)

end Dh
