import Mathlib.Data.Nat.Bitwise
import Mathlib.Dynamics.PeriodicPts.Lemmas
import Mathlib.Data.Nat.Prime.Basic
import Mathlib.Tactic.Ring
import Mathlib.Tactic.NormNum
import Mathlib.Tactic.Positivity
import Verif.Basic
/-
Iterates of linear maps of 32-bit words, by squaring of the matrix.
-/
namespace Dh

/-- The linear map with the columns `c`. -/
def applyCols : List Nat → Nat → Nat
  | [], _ => 0
  | a :: c, v => Nat.xor (Nat.mul (Nat.mod v 2) a) (applyCols c (Nat.div v 2))

/-- The matrix of the square. -/
def sqCols (c : List Nat) : List Nat := c.map (applyCols c)

/-- `m` applications to `v`, by binary powers. -/
def powCols : (fuel : Nat) → List Nat → (m v : Nat) → Nat
  | 0, _, _, v => v
  | fuel + 1, c, m, v => powCols fuel (sqCols c) (m / 2) (if m % 2 = 1 then applyCols c v else v)

theorem mod_two_mul_xor (a u v : Nat) : ((u ^^^ v) % 2) * a = (u % 2) * a ^^^ (v % 2) * a := by
  rcases Nat.mod_two_eq_zero_or_one u with hu | hu <;> rcases Nat.mod_two_eq_zero_or_one v with hv | hv <;>
    simp [Nat.xor_mod_two_eq, Nat.add_mod, hu, hv]

theorem applyCols_xor : ∀ (c : List Nat) (u v : Nat), applyCols c (u ^^^ v) = applyCols c u ^^^ applyCols c v
  | [], u, v => by simp [applyCols]
  | a :: c, u, v => by
    have h := mod_two_mul_xor a u v
    have h2 := applyCols_xor c (u / 2) (v / 2)
    rw [← Nat.xor_div_two] at h2
    show ((u ^^^ v) % 2) * a ^^^ applyCols c ((u ^^^ v) / 2) = ((u % 2) * a ^^^ applyCols c (u / 2)) ^^^ ((v % 2) * a ^^^ applyCols c (v / 2))
    rw [h, h2]
    ac_rfl

theorem applyCols_zero : ∀ c : List Nat, applyCols c 0 = 0
  | [] => rfl
  | a :: c => by
    show (0 % 2) * a ^^^ applyCols c (0 / 2) = 0
    rw [applyCols_zero c]; simp

/-- Composition of linear maps. -/
theorem applyCols_map (F : Nat → Nat) (hF : ∀ u v, F (u ^^^ v) = F u ^^^ F v) (h0 : F 0 = 0) :
    ∀ (d : List Nat) (v : Nat), applyCols (d.map F) v = F (applyCols d v)
  | [], v => h0.symm
  | a :: d, v => by
    show (v % 2) * F a ^^^ applyCols (d.map F) (v / 2) = F ((v % 2) * a ^^^ applyCols d (v / 2))
    rw [hF, applyCols_map F hF h0 d]
    congr 1
    rcases Nat.mod_two_eq_zero_or_one v with hv | hv <;> simp [hv, h0]

theorem applyCols_sq (c : List Nat) (v : Nat) : applyCols (sqCols c) v = applyCols c (applyCols c v) :=
  applyCols_map _ (applyCols_xor c) (applyCols_zero c) c v

theorem powCols_eq : ∀ (fuel : Nat) (c : List Nat) (m v : Nat), m < 2 ^ fuel → powCols fuel c m v = (applyCols c)^[m] v
  | 0, c, m, v, h => by
    have : m = 0 := by simpa using h
    subst this; rfl
  | fuel + 1, c, m, v, h => by
    have hit : ∀ (k w : Nat), (applyCols (sqCols c))^[k] w = (applyCols c)^[2 * k] w := by
      intro k w
      rw [Function.iterate_mul]
      congr 1
      funext u
      exact applyCols_sq c u
    rw [powCols, powCols_eq fuel _ _ _ (by omega), hit]
    split
    · rename_i h1
      rw [← Function.iterate_succ_apply]
      congr 2; omega
    · rename_i h1
      congr 2; omega

/-- The columns of a map. -/
def colsOf (G : Nat → Nat) (k : Nat) : Nat → List Nat
  | 0 => []
  | n + 1 => G (2 ^ k) :: colsOf G (k + 1) n

theorem applyCols_colsOf (G : Nat → Nat) (hG : ∀ u v, G (u ^^^ v) = G u ^^^ G v) :
    ∀ (n k v : Nat), v < 2 ^ n → applyCols (colsOf G k n) v = G (v * 2 ^ k)
  | 0, k, v, h => by
    have : v = 0 := by simpa using h
    subst this
    have h0 := hG 0 0
    simp only [Nat.xor_self] at h0
    simp [colsOf, applyCols, h0]
  | n + 1, k, v, h => by
    show (v % 2) * G (2 ^ k) ^^^ applyCols (colsOf G (k + 1) n) (v / 2) = G (v * 2 ^ k)
    rw [applyCols_colsOf G hG n (k + 1) (v / 2) (by omega)]
    have h0 : G 0 = 0 := by
      have h0 := hG 0 0
      simpa only [Nat.xor_self] using h0
    have h1 : (v % 2) * G (2 ^ k) = G ((v % 2) * 2 ^ k) := by
      rcases Nat.mod_two_eq_zero_or_one v with hv | hv <;> simp [hv, h0]
    rw [h1, ← hG]
    congr 1
    have h2 : v * 2 ^ k = (v / 2) * 2 ^ (k + 1) + (v % 2) * 2 ^ k := by
      rw [pow_succ]
      calc v * 2 ^ k = (2 * (v / 2) + v % 2) * 2 ^ k := by rw [Nat.div_add_mod]
        _ = _ := by ring
    rw [h2]
    apply Nat.eq_of_testBit_eq
    intro i
    rw [Nat.testBit_xor, Nat.add_comm, Nat.mul_comm (v / 2), Nat.add_comm]
    rw [Nat.testBit_two_pow_mul_add _ (by
      rw [pow_succ, Nat.mul_comm]
      exact Nat.mul_lt_mul_of_pos_left (Nat.mod_lt _ (by norm_num)) (by positivity))]
    rw [Nat.testBit_two_pow_mul]
    split
    · rename_i hi
      simp [Nat.not_le.2 hi]
    · rename_i hi
      have : (v % 2 * 2 ^ k).testBit i = false := Nat.testBit_lt_two_pow (lt_of_lt_of_le (by
        rw [pow_succ, Nat.mul_comm]
        exact Nat.mul_lt_mul_of_pos_left (Nat.mod_lt _ (by norm_num)) (by positivity)) (Nat.pow_le_pow_right (by norm_num) (Nat.not_lt.1 hi)))
      rw [this]
      simp [Nat.not_lt.1 hi]

/-- The matrix of a linear map of words. -/
def wordCols (f : UInt → UInt) : List Nat := colsOf (fun n => (f (BitVec.ofNat 32 n)).toNat) 0 32

theorem applyCols_word (f : UInt → UInt) (hf : ∀ u v, f (u ^^^ v) = f u ^^^ f v) (v : UInt) : applyCols (wordCols f) v.toNat = (f v).toNat := by
  rw [wordCols, applyCols_colsOf _ (fun a b => by
    rw [show BitVec.ofNat 32 (a ^^^ b) = BitVec.ofNat 32 a ^^^ BitVec.ofNat 32 b from by
      apply BitVec.eq_of_getLsbD_eq; intro i hi; simp [hi], hf, BitVec.toNat_xor]) 32 0 _ v.isLt]
  simp

/-- Iterates of a linear map of words, computed by squaring. -/
theorem powCols_word (f : UInt → UInt) (hf : ∀ u v, f (u ^^^ v) = f u ^^^ f v) (v : UInt) (fuel m : Nat) (hm : m < 2 ^ fuel) :
    powCols fuel (wordCols f) m v.toNat = (f^[m] v).toNat := by
  rw [powCols_eq fuel _ _ _ hm]
  have : ∀ k, (applyCols (wordCols f))^[k] v.toNat = (f^[k] v).toNat := by
    intro k
    induction k with
    | zero => rfl
    | succ k ih => rw [Function.iterate_succ_apply', ih, applyCols_word f hf, Function.iterate_succ_apply']
  exact this m

end Dh
