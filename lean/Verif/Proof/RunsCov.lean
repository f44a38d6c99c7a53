import Mathlib.Tactic.NormNum
import Mathlib.Data.Nat.ModEq
import Mathlib.Algebra.BigOperators.Intervals
import Mathlib.Data.Rat.BigOperators
import Verif.Proof.Orders
/-
Ascending chains on a circle of values in random order.
-/
set_option linter.unusedSimpArgs false
namespace Dh
open Spec

/-- 1 if the values `y i < y (i+1) < ... < y (i+m)` ascend, otherwise 0. -/
noncomputable def chainInd (y : Nat → ℤ) (m i : Nat) : ℝ := by
  classical exact if ∀ k < m, y (i + k) < y (i + k + 1) then 1 else 0

theorem chainInd_zero (y : Nat → ℤ) (i : Nat) : chainInd y 0 i = 1 := by
  rw [chainInd, if_pos (fun k h => absurd h (by omega))]

theorem chainInd_succ (y : Nat → ℤ) (m i : Nat) : chainInd y (m + 1) i = chainInd y m i * if y (i + m) < y (i + m + 1) then 1 else 0 := by
  classical
  simp only [chainInd]
  by_cases h : y (i + m) < y (i + m + 1)
  · rw [if_pos h, mul_one]
    refine if_congr ⟨fun a k hk => a k (by omega), fun a k hk => ?_⟩ rfl rfl
    rcases Nat.lt_or_ge k m with h1 | h1
    · exact a k h1
    · obtain rfl : k = m := by omega
      exact h
  · rw [if_neg h, mul_zero, if_neg (fun a => h (a m (by omega)))]

/-- Overlapping chains make one longer chain. -/
theorem chainInd_mul (y : Nat → ℤ) (m m' i d : Nat) (hd : d ≤ m) : chainInd y m i * chainInd y m' (i + d) = chainInd y (max m (d + m')) i := by
  classical
  simp only [chainInd]
  by_cases h1 : ∀ k < m, y (i + k) < y (i + k + 1)
  · by_cases h2 : ∀ k < m', y (i + d + k) < y (i + d + k + 1)
    · rw [if_pos h1, if_pos h2, if_pos, mul_one]
      intro k hk
      rcases Nat.lt_or_ge k m with h | h
      · exact h1 k h
      · have := h2 (k - d) (by omega)
        rwa [show i + d + (k - d) = i + k by omega] at this
    · rw [if_neg h2, mul_zero, if_neg]
      intro h
      exact h2 fun k hk => by
        have := h (d + k) (by omega)
        rwa [← Nat.add_assoc] at this
  · rw [if_neg h1, zero_mul, if_neg]
    intro h
    exact h1 fun k hk => h k (by omega)

theorem chainInd_periodic {y : Nat → ℤ} {n : Nat} (hy : ∀ i, y (i + n) = y i) (m i : Nat) : chainInd y m (i + n) = chainInd y m i := by
  classical
  simp only [chainInd]
  have e : ∀ k, y (i + n + k) = y (i + k) := fun k => by rw [Nat.add_right_comm, hy]
  refine if_congr ⟨fun a k hk => ?_, fun a k hk => ?_⟩ rfl rfl
  · have := a k hk
    rwa [e, Nat.add_assoc, e, ← Nat.add_assoc] at this
  · rw [e, Nat.add_assoc, e, ← Nat.add_assoc]
    exact a k hk

/-! ### One permutation in `m!` is ascending -/

theorem perm_ascending {m : Nat} (π : Equiv.Perm (Fin m)) : StrictMono π ↔ π = 1 := by
  constructor
  · intro hm
    have := Subsingleton.elim (hm.orderIsoOfSurjective _ π.surjective) (OrderIso.refl (Fin m))
    ext i
    exact congrArg Fin.val (congrFun (congrArg (fun e : Fin m ≃o Fin m => (e : Fin m → Fin m)) this) i)
  · rintro rfl
    exact fun _ _ h => h

theorem permList_one {m : Nat} (π : Equiv.Perm (Fin m)) : permList π = List.range m ↔ π = 1 := by
  constructor
  · intro h
    ext i
    have h2 := congrArg (fun L => L.getD i.val 0) h
    simp only [permList, List.getD_eq_getElem?_getD, List.getElem?_ofFn, i.isLt, dif_pos, Option.getD_some, List.getElem?_range] at h2
    simpa using h2
  · rintro rfl
    refine List.ext_getElem (by simp [permList]) fun i h1 h2 => by simp [permList]

theorem mean_ascending (m : Nat) : (mean fun τ : Equiv.Perm (Fin m) => if permList τ = List.range m then (1 : ℝ) else 0) = 1 / m.factorial := by
  simp only [permList_one, mean]
  rw [Finset.sum_ite_eq', if_pos (Finset.mem_univ _), Fintype.card_perm, Fintype.card_fin]

theorem strictMono_order {m : Nat} (a : Fin m → ℤ) (π : Equiv.Perm (Fin m)) (h : ∀ i j, a i ≤ a j ↔ π i ≤ π j) : StrictMono a ↔ permList π = List.range m := by
  rw [permList_one, ← perm_ascending]
  constructor
  · intro hm i j hij
    have := hm hij
    rw [← not_le, ← h, not_le]
    exact this
  · intro hm i j hij
    have := hm hij
    rw [← not_le, h, not_le]
    exact this

/-! ### The circle -/

section circle
variable {N : Nat} (x : Fin N → ℤ) (n : Nat) (h0 : 0 < n) (hN : n ≤ N)

/-- The first `n` of the values `x`, in the order `σ`, on a circle. -/
def circle (σ : Equiv.Perm (Fin N)) (i : Nat) : ℤ := x (σ ⟨i % n, (Nat.mod_lt _ h0).trans_le hN⟩)

theorem circle_periodic (σ : Equiv.Perm (Fin N)) (i : Nat) : circle x n h0 hN σ (i + n) = circle x n h0 hN σ i := by
  simp only [circle, Nat.add_mod_right]

/-- The places of a chain of `m` values from `i`. -/
def arc (m i : Nat) (hm : m ≤ n) : Fin m ↪ Fin N := ⟨fun k => ⟨(i + k) % n, (Nat.mod_lt _ h0).trans_le hN⟩, fun j k e => by
  simp only [Fin.mk.injEq] at e
  have e : (i + j.val) % n = (i + k.val) % n := e
  have h1 : Nat.ModEq n (i + j.val) (i + k.val) := e
  have h2 := Nat.ModEq.add_left_cancel' i h1
  exact Fin.ext (Nat.ModEq.eq_of_lt_of_lt h2 (by omega) (by omega))⟩

theorem chainInd_arc (σ : Equiv.Perm (Fin N)) (m i : Nat) (hm : m + 1 ≤ n) : chainInd (circle x n h0 hN σ) m i =
    (by classical exact if StrictMono (fun k => x (σ (arc n h0 hN (m + 1) i hm k))) then (1 : ℝ) else 0) := by
  classical
  rw [chainInd]
  refine if_congr ?_ rfl rfl
  rw [Fin.strictMono_iff_lt_succ]
  constructor
  · intro h k
    exact h k.val k.isLt
  · intro h k hk
    exact h ⟨k, hk⟩

/-- A chain of `m+1` values ascends with probability `1 / (m+1)!`. -/
theorem mean_chain (hx : Function.Injective x) (m i : Nat) (hm : m + 1 ≤ n) :
    (mean fun σ : Equiv.Perm (Fin N) => chainInd (circle x n h0 hN σ) m i) = 1 / (m + 1).factorial := by
  classical
  rw [mean_congr fun σ => chainInd_arc x n h0 hN σ m i hm]
  rw [mean_order (fun a : Fin (m + 1) → ℤ => if StrictMono a then (1 : ℝ) else 0) (fun L => if L = List.range (m + 1) then (1 : ℝ) else 0)
    (fun a π h => if_congr (strictMono_order a π h) rfl rfl) x hx (arc n h0 hN (m + 1) i hm)]
  exact mean_ascending _

/-- Chains without common values are independent. -/
theorem mean_chain_two (hx : Function.Injective x) (m m' i j : Nat) (hm : m + 1 ≤ n) (hm' : m' + 1 ≤ n)
    (hd : ∀ a ≤ m, ∀ b ≤ m', (i + a) % n ≠ (j + b) % n) :
    (mean fun σ : Equiv.Perm (Fin N) => chainInd (circle x n h0 hN σ) m i * chainInd (circle x n h0 hN σ) m' j) =
      1 / ((m + 1).factorial * (m' + 1).factorial) := by
  classical
  have e : ∀ σ : Equiv.Perm (Fin N), chainInd (circle x n h0 hN σ) m i * chainInd (circle x n h0 hN σ) m' j =
      (fun (a : Fin (m + 1) → ℤ) (b : Fin (m' + 1) → ℤ) => (if StrictMono a then (1 : ℝ) else 0) * if StrictMono b then 1 else 0)
        (fun k => x (σ (arc n h0 hN (m + 1) i hm k))) (fun k => x (σ (arc n h0 hN (m' + 1) j hm' k))) := by
    intro σ
    rw [chainInd_arc x n h0 hN σ m i hm, chainInd_arc x n h0 hN σ m' j hm']
  rw [mean_congr e]
  refine (mean_order_two (fun (a : Fin (m + 1) → ℤ) (b : Fin (m' + 1) → ℤ) => (if StrictMono a then (1 : ℝ) else 0) * if StrictMono b then 1 else 0) (fun L L' => (if L = List.range (m + 1) then (1 : ℝ) else 0) * if L' = List.range (m' + 1) then 1 else 0)
    (fun a b π ρ ha hb => by
      rw [if_congr (strictMono_order a π ha) rfl rfl, if_congr (strictMono_order b ρ hb) rfl rfl]) x hx (arc n h0 hN (m + 1) i hm) (arc n h0 hN (m' + 1) j hm') (fun a b hab => ?_)).trans ?_
  rotate_left
  · simp only [mean_mul_left, mean_ascending]
    have : ∀ τ : Equiv.Perm (Fin (m + 1)), (if permList τ = List.range (m + 1) then (1 : ℝ) else 0) * (1 / (m' + 1).factorial) =
      (1 / (m' + 1).factorial) * (if permList τ = List.range (m + 1) then (1 : ℝ) else 0) := fun τ => mul_comm _ _
    rw [mean_congr this, mean_mul_left, mean_ascending]
    ring
  · have := congrArg Fin.val hab
    exact hd a.val (by omega) b.val (by omega) this

end circle

/-! ### Covariances -/

/-- The covariance of two chains when the second begins `d` places after the first. -/
def chainCov (m m' d : Nat) : ℚ :=
  if d ≤ m then 1 / (max m (d + m') + 1).factorial - 1 / ((m + 1).factorial * (m' + 1).factorial) else 0

/-- The covariance of one chain with the sum of all chains of another length. -/
def chainCovSum (m m' : Nat) : ℚ := (∑ k ∈ Finset.range (m' + 1), chainCov m' m k) + ∑ e ∈ Finset.range m, chainCov m m' (e + 1)

section circle
variable {N : Nat} (x : Fin N → ℤ) (n : Nat) (h0 : 0 < n) (hN : n ≤ N)

theorem mean_chain_mul (hx : Function.Injective x) (m m' i d : Nat) (hn : m + m' + 2 ≤ n) (hd : d < n) :
    (mean fun σ : Equiv.Perm (Fin N) => chainInd (circle x n h0 hN σ) m i * chainInd (circle x n h0 hN σ) m' (i + d)) =
      ((if d ≤ m then chainCov m m' d else if n - d ≤ m' then chainCov m' m (n - d) else 0 : ℚ) : ℝ) +
        1 / (m + 1).factorial * (1 / (m' + 1).factorial) := by
  by_cases h1 : d ≤ m
  · rw [if_pos h1, mean_congr fun σ => chainInd_mul _ m m' i d h1, mean_chain x n h0 hN hx _ _ (by omega), chainCov, if_pos h1]
    push_cast
    ring
  · rw [if_neg h1]
    by_cases h2 : n - d ≤ m'
    · rw [if_pos h2]
      have e : ∀ σ : Equiv.Perm (Fin N), chainInd (circle x n h0 hN σ) m i * chainInd (circle x n h0 hN σ) m' (i + d) =
          chainInd (circle x n h0 hN σ) (max m' (n - d + m)) (i + d) := by
        intro σ
        rw [← chainInd_mul _ m' m (i + d) (n - d) h2, show i + d + (n - d) = i + n by omega, chainInd_periodic (circle_periodic x n h0 hN σ), mul_comm]
      rw [mean_congr e, mean_chain x n h0 hN hx _ _ (by omega), chainCov, if_pos h2]
      push_cast
      ring
    · rw [if_neg h2, mean_chain_two x n h0 hN hx m m' i (i + d) (by omega) (by omega)]
      · push_cast
        rw [zero_add, one_div_mul_one_div]
      · intro a ha b hb e
        have e1 : Nat.ModEq n (i + a) (i + (d + b)) := by rw [← Nat.add_assoc]; exact e
        have e2 := Nat.ModEq.add_left_cancel' i e1
        exact absurd (Nat.ModEq.eq_of_lt_of_lt e2 (by omega) (by omega)) (by omega)

theorem sum_periodic {g : Nat → ℝ} {n : Nat} (hg : ∀ i, g (i + n) = g i) : ∀ j, ∑ k ∈ Finset.range n, g (j + k) = ∑ k ∈ Finset.range n, g k
  | 0 => by simp
  | j + 1 => by
    rw [← sum_periodic hg j]
    have h1 := Finset.sum_range_succ (fun k => g (j + k)) n
    have h2 := Finset.sum_range_succ' (fun k => g (j + k)) n
    rw [h1] at h2
    rw [hg, Nat.add_zero] at h2
    have := add_right_cancel h2
    rw [this]
    exact Finset.sum_congr rfl fun k _ => by congr 1; omega

theorem sum_cases (n m m' : Nat) (A B : Nat → ℝ) (hn : m + m' + 2 ≤ n) :
    ∑ k ∈ Finset.range n, (if k ≤ m' then A k else if n - k ≤ m then B (n - k) else 0) =
      (∑ k ∈ Finset.range (m' + 1), A k) + ∑ e ∈ Finset.range m, B (e + 1) := by
  obtain ⟨w, rfl⟩ : ∃ w, n = m' + 1 + w + m := ⟨n - (m' + 1 + m), by omega⟩
  rw [Finset.sum_range_add, Finset.sum_range_add]
  have e1 : ∀ k ∈ Finset.range (m' + 1), (if k ≤ m' then A k else if m' + 1 + w + m - k ≤ m then B (m' + 1 + w + m - k) else 0) = A k := fun k hk => by
    rw [Finset.mem_range] at hk
    rw [if_pos (by omega)]
  have e2 : ∀ k ∈ Finset.range w, (if m' + 1 + k ≤ m' then A (m' + 1 + k) else if m' + 1 + w + m - (m' + 1 + k) ≤ m then
      B (m' + 1 + w + m - (m' + 1 + k)) else 0) = 0 := fun k hk => by
    rw [Finset.mem_range] at hk
    rw [if_neg (by omega), if_neg (by omega)]
  have e3 : ∀ k ∈ Finset.range m, (if m' + 1 + w + k ≤ m' then A (m' + 1 + w + k) else if m' + 1 + w + m - (m' + 1 + w + k) ≤ m then
      B (m' + 1 + w + m - (m' + 1 + w + k)) else 0) = B ((m - 1 - k) + 1) := fun k hk => by
    rw [Finset.mem_range] at hk
    rw [if_neg (by omega), if_pos (by omega)]
    congr 1
    omega
  rw [Finset.sum_congr rfl e1, Finset.sum_congr rfl e2, Finset.sum_congr rfl e3, Finset.sum_const_zero, add_zero,
    Finset.sum_range_reflect (fun e => B (e + 1)) m]

/-- One chain and all chains of another length. -/
theorem mean_chain_sum (hx : Function.Injective x) (m m' j : Nat) (hn : m + m' + 2 ≤ n) :
    (∑ i ∈ Finset.range n, mean fun σ : Equiv.Perm (Fin N) => chainInd (circle x n h0 hN σ) m i * chainInd (circle x n h0 hN σ) m' j) =
      (chainCovSum m m' : ℝ) + n / (m + 1).factorial * (1 / (m' + 1).factorial) := by
  rw [← sum_periodic (g := fun i => mean fun σ : Equiv.Perm (Fin N) => chainInd (circle x n h0 hN σ) m i * chainInd (circle x n h0 hN σ) m' j)
    (fun i => mean_congr fun σ => by rw [chainInd_periodic (circle_periodic x n h0 hN σ)]) j]
  have e : ∀ k ∈ Finset.range n, (mean fun σ : Equiv.Perm (Fin N) => chainInd (circle x n h0 hN σ) m (j + k) * chainInd (circle x n h0 hN σ) m' j) =
      (if k ≤ m' then (chainCov m' m k : ℝ) else if n - k ≤ m then (chainCov m m' (n - k) : ℝ) else 0) +
        1 / (m + 1).factorial * (1 / (m' + 1).factorial) := by
    intro k hk
    rw [Finset.mem_range] at hk
    have h := mean_chain_mul x n h0 hN hx m' m j k (by omega) hk
    rw [mean_congr fun σ => mul_comm _ _, h]
    split_ifs <;> (push_cast; ring)
  rw [Finset.sum_congr rfl e, Finset.sum_add_distrib, sum_cases n m m' (fun k => (chainCov m' m k : ℝ)) (fun k => (chainCov m m' k : ℝ)) hn, Finset.sum_const, Finset.card_range, nsmul_eq_mul, chainCovSum]
  push_cast
  ring

end circle

end Dh
