import Verif.Model.MPower
import Mathlib.Data.Matrix.Mul
import Mathlib.LinearAlgebra.Matrix.Notation
import Mathlib.Tactic.Linarith
import Mathlib.Tactic.FieldSimp
import Mathlib.Tactic.Ring
import Mathlib.Algebra.Order.Field.Rat
/-
Property C18: matrix power by repeated squaring with a decimal exponent.
-/
set_option linter.unusedSimpArgs false
namespace Dh

variable {F : Type*} [Field F] [LinearOrder F] [IsStrictOrderedRing F]

/-- The matrix stored in a vector in row order. -/
def matOf (m : Nat) (A : List F) : Matrix (Fin m) (Fin m) F := fun i j => A.getD (i * m + j) 0

theorem idx_lt {m i j : Nat} (hi : i < m) (hj : j < m) : i * m + j < m * m := by
  calc i * m + j < i * m + m := by omega
    _ = (i + 1) * m := by ring
    _ ≤ m * m := Nat.mul_le_mul_right m hi

theorem idx_inj {m i j i' j' : Nat} (hj : j < m) (hj' : j' < m) (h : i * m + j = i' * m + j') : i = i' ∧ j = j' := by
  have hm : 0 < m := by omega
  have h1 : (i * m + j) / m = i := by rw [Nat.mul_comm, Nat.mul_add_div hm, Nat.div_eq_of_lt hj]; omega
  have h2 : (i' * m + j') / m = i' := by rw [Nat.mul_comm, Nat.mul_add_div hm, Nat.div_eq_of_lt hj']; omega
  have : i = i' := by rw [← h1, ← h2, h]
  subst this
  exact ⟨rfl, by omega⟩

/-- Scalar product of row `i` and column `j`, terms `k, ..., k+todo-1`. -/
def dotFrom (A B : List F) (m i j k todo : Nat) : F :=
  ((List.range todo).map fun l => A.getD (i * m + (k + l)) 0 * B.getD ((k + l) * m + j) 0).sum

theorem mmK_ok (A B : List F) (m i j : Nat) (hA : A.length = m * m) (hB : B.length = m * m) (hi : i < m) (hj : j < m) :
    ∀ (todo k : Nat) (s : F) (C : List F), k + todo ≤ m → C.length = m * m →
    mmK A B m i j todo k s C = .ok (if todo = 0 then C else C.set (i * m + j) (s + dotFrom A B m i j k todo)) := by
  intro todo
  induction todo with
  | zero => intro k s C _ _; rfl
  | succ todo ih =>
    intro k s C hk hC
    have h1 : i * m + k < A.length := by rw [hA]; exact idx_lt hi (by omega)
    have h2 : k * m + j < B.length := by rw [hB]; exact idx_lt (by omega) hj
    rw [mmK, rd_ok h1, rd_ok h2]
    simp only [Res.bind_ok, wr]
    rw [if_pos (by rw [hC]; exact idx_lt hi hj)]
    simp only [Res.bind_ok]
    rw [ih (k + 1) _ _ (by omega) (by simpa using hC)]
    have hd : dotFrom A B m i j k (todo + 1) = A[i * m + k] * B[k * m + j] + dotFrom A B m i j (k + 1) todo := by
      unfold dotFrom
      rw [List.range_succ_eq_map, List.map_cons, List.sum_cons, List.map_map]
      congr 1
      · simp [List.getD_eq_getElem?_getD, List.getElem?_eq_getElem h1, List.getElem?_eq_getElem h2]
      · congr 1
        apply List.map_congr_left
        intro l _
        simp only [Function.comp]
        rw [show k + Nat.succ l = k + 1 + l by omega]
    by_cases h0 : todo = 0
    · subst h0
      rw [hd]
      simp [dotFrom]
    · simp only [h0, if_false, Nat.add_eq_zero_iff, false_and, List.set_set, hd]
      congr 2
      ring

theorem mmJ_ok (A B : List F) (m i : Nat) (hA : A.length = m * m) (hB : B.length = m * m) (hi : i < m) :
    ∀ (todo j : Nat) (C : List F), j + todo ≤ m → C.length = m * m →
    ∃ C', mmJ A B m i todo j C = .ok C' ∧ C'.length = m * m ∧
      (∀ j', j ≤ j' → j' < j + todo → C'.getD (i * m + j') 0 = dotFrom A B m i j' 0 m) ∧
      (∀ p, (∀ j', j ≤ j' → j' < j + todo → p ≠ i * m + j') → C'.getD p 0 = C.getD p 0) := by
  intro todo
  induction todo with
  | zero => intro j C _ hC; exact ⟨C, rfl, hC, by intro j' h1 h2; omega, fun _ _ => rfl⟩
  | succ todo ih =>
    intro j C hj hC
    have hm : ¬ m = 0 := by omega
    rw [mmJ, mmK_ok A B m i j hA hB hi (by omega) m 0 0 C (by omega) hC]
    simp only [Res.bind_ok, hm, if_false]
    obtain ⟨C', h1, h2, h3, h4⟩ := ih (j + 1) (C.set (i * m + j) (0 + dotFrom A B m i j 0 m)) (by omega) (by simpa using hC)
    refine ⟨C', h1, h2, ?_, ?_⟩
    · intro j' hj1 hj2
      by_cases h : j' = j
      · subst h
        rw [h4]
        · rw [List.getD_eq_getElem?_getD, List.getElem?_set_self (by rw [hC]; exact idx_lt hi (by omega))]
          simp
        · intro j'' a b c
          have := idx_inj (by omega) (by omega) c
          omega
      · exact h3 j' (by omega) (by omega)
    · intro p hp
      rw [h4 p (fun j' a b => hp j' (by omega) (by omega))]
      rw [List.getD_eq_getElem?_getD, List.getElem?_set_ne (fun h => hp j (le_refl _) (by omega) h.symm), ← List.getD_eq_getElem?_getD]

theorem mmI_ok (A B : List F) (m : Nat) (hA : A.length = m * m) (hB : B.length = m * m) :
    ∀ (todo i : Nat) (C : List F), i + todo ≤ m → C.length = m * m →
    ∃ C', mmI A B m todo i C = .ok C' ∧ C'.length = m * m ∧
      (∀ i' j', i ≤ i' → i' < i + todo → j' < m → C'.getD (i' * m + j') 0 = dotFrom A B m i' j' 0 m) ∧
      (∀ i' j', ¬ (i ≤ i' ∧ i' < i + todo) → j' < m → C'.getD (i' * m + j') 0 = C.getD (i' * m + j') 0) := by
  intro todo
  induction todo with
  | zero => intro i C _ hC; exact ⟨C, rfl, hC, by intro i' j' h1 h2; omega, fun _ _ _ _ => rfl⟩
  | succ todo ih =>
    intro i C hi hC
    obtain ⟨C1, g1, g2, g3, g4⟩ := mmJ_ok A B m i hA hB (by omega) m 0 C (by omega) hC
    rw [mmI, g1]
    simp only [Res.bind_ok]
    obtain ⟨C', h1, h2, h3, h4⟩ := ih (i + 1) C1 (by omega) g2
    refine ⟨C', h1, h2, ?_, ?_⟩
    · intro i' j' a b c
      by_cases h : i' = i
      · subst h
        rw [h4 i' j' (by omega) c]
        exact g3 j' (by omega) (by omega)
      · exact h3 i' j' (by omega) (by omega) c
    · intro i' j' a c
      rw [h4 i' j' (by omega) c]
      apply g4
      intro j'' _ hj'' e
      have := idx_inj c (by omega) e
      omega

theorem dotFrom_eq (A B : List F) (m : Nat) (i j : Fin m) :
    dotFrom A B m i j 0 m = (matOf m A * matOf m B) i j := by
  rw [Matrix.mul_apply]
  unfold dotFrom matOf
  rw [← List.sum_ofFn]
  congr 1
  apply List.ext_getElem
  · simp
  · intro n h1 h2
    simp

theorem mMultiply_ok (A B C : List F) (m : Nat) (hA : A.length = m * m) (hB : B.length = m * m) (hC : C.length = m * m) :
    ∃ C', mMultiply A B C m = .ok C' ∧ C'.length = m * m ∧ matOf m C' = matOf m A * matOf m B := by
  obtain ⟨C', h1, h2, h3, -⟩ := mmI_ok A B m hA hB m 0 C (by omega) hC
  refine ⟨C', h1, h2, ?_⟩
  ext i j
  rw [← dotFrom_eq]
  exact h3 i j (by omega) (by omega) j.2

theorem mCopy_ok (A : List F) : ∀ (todo i : Nat) (V : List F), i + todo = A.length → V.length = A.length →
    V.take i = A.take i → mCopy A todo i V = .ok A := by
  intro todo
  induction todo with
  | zero =>
    intro i V h hl ht
    rw [mCopy]
    rw [List.take_of_length_le (by omega), List.take_of_length_le (by omega)] at ht
    rw [ht]
  | succ todo ih =>
    intro i V h hl ht
    rw [mCopy, rd_ok (by omega)]
    simp only [Res.bind_ok, wr]
    rw [if_pos (by omega)]
    simp only [Res.bind_ok]
    apply ih (i + 1) _ (by omega) (by simpa using hl)
    rw [List.take_succ_eq_append_getElem (by simp; omega), List.take_succ_eq_append_getElem (by omega)]
    simp [List.take_set_of_le, ht]

theorem mScale_ok : ∀ (todo j : Nat) (V : List F), j + todo = V.length →
    mScale todo j V = .ok (V.take j ++ (V.drop j).map (· * (1 / 10 ^ 140))) := by
  intro todo
  induction todo with
  | zero => intro j V h; rw [mScale, List.take_of_length_le (by omega), List.drop_of_length_le (by omega)]; simp
  | succ todo ih =>
    intro j V h
    rw [mScale, rd_ok (by omega)]
    simp only [Res.bind_ok, wr]
    rw [if_pos (by omega)]
    simp only [Res.bind_ok]
    rw [ih (j + 1) _ (by simp; omega)]
    rw [List.take_succ_eq_append_getElem (by simp; omega), List.drop_eq_getElem_cons (show j < V.length by omega), List.map_cons]
    simp [List.take_set_of_le, List.drop_set_of_lt]

/-- The number a vector together with an exponent stands for. -/
def scaled (m : Nat) (V : List F) (e : ℤ) : Matrix (Fin m) (Fin m) F := (10 : F) ^ e • matOf m V

theorem scaled_map (m : Nat) (V : List F) (e : ℤ) :
    scaled m (V.map (· * (1 / 10 ^ 140))) (e + 140) = scaled m V e := by
  ext i j
  simp only [scaled, Matrix.smul_apply, matOf, smul_eq_mul, List.getD_eq_getElem?_getD, List.getElem?_map]
  rw [zpow_add₀ (by norm_num)]
  cases V[(i : Nat) * m + j]? with
  | none => simp
  | some x =>
    simp only [Option.map_some, Option.getD_some]
    have : (10 : F) ^ (140 : ℤ) = 10 ^ 140 := by norm_cast
    rw [this]
    field_simp

theorem mRescale_ok (m : Nat) : ∀ (todo i : Nat) (V : List F) (e : ℤ), i + todo = m * m → V.length = m * m →
    ∃ V' e', mRescale (m * m) todo i V e = .ok (V', e') ∧ V'.length = m * m ∧ scaled m V' e' = scaled m V e := by
  intro todo
  induction todo with
  | zero => intro i V e _ hV; exact ⟨V, e, rfl, hV, rfl⟩
  | succ todo ih =>
    intro i V e hi hV
    rw [mRescale, rd_ok (by omega)]
    simp only [Res.bind_ok]
    split
    · rw [mScale_ok (m * m) 0 V (by omega)]
      simp only [Res.bind_ok, List.take_zero, List.nil_append, List.drop_zero]
      obtain ⟨V', e', h1, h2, h3⟩ := ih (i + 1) (V.map (· * (1 / 10 ^ 140))) (e + 140) (by omega) (by simpa using hV)
      exact ⟨V', e', h1, h2, by rw [h3, scaled_map]⟩
    · exact ih (i + 1) V e (by omega) hV

/-- C18.  For every `n >= 1`, `mPower` ends within `log2 n + 1` levels of recursion without
leaving its arrays, and `V * 10^eV` is the `n`-th power of `A * 10^eA`. -/
theorem C18_mPower (A : List F) (eA : ℤ) (m : Nat) (hm : 0 < m) (hA : A.length = m * m) :
    ∀ (n : Nat), 1 ≤ n → ∀ (fuel : Nat), Nat.log2 n + 1 ≤ fuel → ∀ (V : List F) (eV : ℤ), V.length = m * m →
    ∃ V' e', mPower A eA m fuel n V eV = .ok (V', e') ∧ V'.length = m * m ∧
      (10 : F) ^ e' • matOf m V' = ((10 : F) ^ eA • matOf m A) ^ n := by
  intro n
  induction n using Nat.strongRecOn with
  | ind n ih =>
    intro hn fuel hf V eV hV
    obtain ⟨fuel, rfl⟩ : ∃ f, fuel = f + 1 := ⟨fuel - 1, by omega⟩
    rw [mPower]
    by_cases h1 : n = 1
    · subst h1
      rw [if_pos rfl, ← hA, mCopy_ok A A.length 0 V (by omega) (by omega) (by simp)]
      simp only [Res.bind_ok, if_neg (show ¬ m = 0 by omega)]
      exact ⟨A, eA, rfl, rfl, by simp⟩
    · rw [if_neg h1]
      have hlog : Nat.log2 (n / 2) + 1 ≤ fuel := by
        have := Nat.log2_def n
        rw [if_pos (by omega)] at this
        omega
      obtain ⟨W, eW, g1, g2, g3⟩ := ih (n / 2) (by omega) (by omega) fuel hlog V eV hV
      rw [g1]
      simp only [Res.bind_ok]
      obtain ⟨B, b1, b2, b3⟩ := mMultiply_ok W W (List.replicate (m * m) 0) m g2 g2 (by simp)
      rw [b1]
      simp only [Res.bind_ok]
      have hB : (10 : F) ^ (2 * eW) • matOf m B = ((10 : F) ^ eA • matOf m A) ^ (n / 2 + n / 2) := by
        rw [b3, pow_add, ← g3, Matrix.smul_mul, Matrix.mul_smul, smul_smul, two_mul, zpow_add₀ (by norm_num)]
      by_cases h2 : n % 2 = 0
      · rw [if_pos h2, ← b2, mCopy_ok B B.length 0 W (by omega) (by omega) (by simp)]
        simp only [Res.bind_ok]
        rw [b2]
        obtain ⟨V', e', r1, r2, r3⟩ := mRescale_ok m (m * m) 0 B (2 * eW) (by omega) b2
        refine ⟨V', e', r1, r2, ?_⟩
        unfold scaled at r3
        rw [r3, hB]
        congr 1; omega
      · rw [if_neg h2]
        obtain ⟨C, c1, c2, c3⟩ := mMultiply_ok A B W m hA b2 g2
        rw [c1]
        simp only [Res.bind_ok]
        obtain ⟨V', e', r1, r2, r3⟩ := mRescale_ok m (m * m) 0 C (eA + 2 * eW) (by omega) c2
        refine ⟨V', e', r1, r2, ?_⟩
        unfold scaled at r3
        rw [r3, c3, zpow_add₀ (by norm_num), ← smul_smul, ← Matrix.mul_smul, hB, ← Matrix.smul_mul, ← pow_succ']
        congr 1; omega

/-- C18, the excluded exponent: with `n = 0` the recursion never ends. -/
theorem C18_zero_diverges (A : List F) (eA : ℤ) (m : Nat) : ∀ (fuel : Nat) (V : List F) (eV : ℤ),
    mPower A eA m fuel 0 V eV = .loop := by
  intro fuel
  induction fuel with
  | zero => intro V eV; rfl
  | succ fuel ih => intro V eV; rw [mPower, if_neg (by omega), ih]; rfl

example : mPower (F := ℚ) [1, 1, 1, 0] 0 2 4 10 [0, 0, 0, 0] 0 = .ok ([89, 55, 55, 34], 0) := by decide +kernel
example : mPower (F := ℚ) [10 ^ 100] 3 1 2 3 [0] 0 = .ok ([10 ^ 160], 149) := by decide +kernel

end Dh
