import Mathlib.Tactic.Linarith
import Mathlib.Tactic.Ring
import Mathlib.Tactic.IntervalCases
import Mathlib.Data.List.Permutation
import Verif.Model.Perms
import Verif.Proof.Tally
/-
C31: order patterns of five numbers.  C60: order patterns of k numbers.
-/
set_option linter.unusedSimpArgs false
namespace Dh

namespace Spec

/-- The first `n` entries of `w` and `w'` are in the same relative order. -/
def SameOrder {α β : Type} [LE α] [LE β] (n : Nat) (w : Nat → α) (w' : Nat → β) : Prop :=
  ∀ a < n, ∀ b < n, (w a ≤ w b ↔ w' a ≤ w' b)

/-- The first `n` entries are different from each other. -/
def Distinct {α : Type} (n : Nat) (w : Nat → α) : Prop := ∀ a < n, ∀ b < n, w a = w b → a = b

end Spec
open Spec

theorem kpermMax_spec (w : Nat → Int) : ∀ (todo j k : Nat), k < j → (∀ x < j, w x ≤ w k) →
    (kpermMax w todo j (w k) k < j + todo) ∧ ∀ x < j + todo, w x ≤ w (kpermMax w todo j (w k) k)
  | 0, j, k, hk, h => ⟨hk, h⟩
  | todo + 1, j, k, hk, h => by
    rw [kpermMax]
    split
    · next hle =>
      have := kpermMax_spec w todo (j + 1) j (by omega) (fun x hx => by
        rcases Nat.lt_succ_iff_lt_or_eq.1 hx with hx | rfl
        · exact (h x hx).trans hle
        · exact le_rfl)
      rw [show j + (todo + 1) = j + 1 + todo from by omega]; exact this
    · next hgt =>
      have := kpermMax_spec w todo (j + 1) k (by omega) (fun x hx => by
        rcases Nat.lt_succ_iff_lt_or_eq.1 hx with hx | rfl
        · exact h x hx
        · exact (not_le.1 hgt).le)
      rw [show j + (todo + 1) = j + 1 + todo from by omega]; exact this

theorem kpermMax_congr (w w' : Nat → Int) : ∀ (todo j k : Nat), k < j → SameOrder (j + todo) w w' →
    kpermMax w todo j (w k) k = kpermMax w' todo j (w' k) k
  | 0, j, k, _, _ => rfl
  | todo + 1, j, k, hk, h => by
    have h' : SameOrder (j + 1 + todo) w w' := by rw [show j + 1 + todo = j + (todo + 1) from by omega]; exact h
    rw [kpermMax, kpermMax]
    by_cases hle : w k ≤ w j
    · rw [if_pos hle, if_pos ((h k (by omega) j (by omega)).1 hle)]
      exact kpermMax_congr w w' todo (j + 1) j (by omega) h'
    · rw [if_neg hle, if_neg (fun h2 => hle ((h k (by omega) j (by omega)).2 h2))]
      exact kpermMax_congr w w' todo (j + 1) k (by omega) h'

/-- The place of the maximum found among the entries `0, ..., i`. -/
def maxPos (w : Nat → Int) (i : Nat) : Nat := kpermMax w i 1 (w 0) 0

theorem maxPos_le (w : Nat → Int) (i : Nat) : maxPos w i ≤ i := by
  have := (kpermMax_spec w i 1 0 (by omega) (fun x hx => by rw [show x = 0 from by omega])).1
  rw [maxPos]; omega

theorem le_maxPos (w : Nat → Int) (i x : Nat) (hx : x ≤ i) : w x ≤ w (maxPos w i) :=
  (kpermMax_spec w i 1 0 (by omega) (fun x hx => by rw [show x = 0 from by omega])).2 x (by omega)

theorem maxPos_congr {w w' : Nat → Int} {i : Nat} (h : SameOrder (i + 1) w w') : maxPos w i = maxPos w' i :=
  kpermMax_congr w w' i 1 0 (by omega) (by rw [Nat.add_comm]; exact h)

/-- The transposition of `i` and `k`. -/
def swapIdx (i k x : Nat) : Nat := if x = k then i else if x = i then k else x

theorem kpermSwap_eq (w : Nat → Int) (i k x : Nat) : kpermSwap w i k x = w (swapIdx i k x) := by
  rw [kpermSwap, swapIdx]
  split
  · rfl
  · split <;> rfl

theorem swapIdx_lt {n i k x : Nat} (hi : i < n) (hk : k < n) (hx : x < n) : swapIdx i k x < n := by
  rw [swapIdx]; split
  · exact hi
  · split
    · exact hk
    · exact hx

theorem swapIdx_swapIdx (i k x : Nat) : swapIdx i k (swapIdx i k x) = x := by
  simp only [swapIdx]
  by_cases h1 : x = k
  · subst h1
    by_cases h2 : i = x
    · simp [h2]
    · simp [h2]
  · by_cases h2 : x = i
    · subst h2; simp [h1]
    · simp [h1, h2]

theorem Spec.SameOrder.swap {w w' : Nat → Int} {n i k : Nat} (h : SameOrder n w w') (hi : i < n) (hk : k < n) :
    SameOrder n (kpermSwap w i k) (kpermSwap w' i k) := by
  intro a ha b hb
  rw [kpermSwap_eq, kpermSwap_eq, kpermSwap_eq, kpermSwap_eq]
  exact h _ (swapIdx_lt hi hk ha) _ (swapIdx_lt hi hk hb)

theorem Spec.SameOrder.unswap {w w' : Nat → Int} {n i k : Nat} (hi : i < n) (hk : k < n)
    (h : SameOrder n (kpermSwap w i k) (kpermSwap w' i k)) : SameOrder n w w' := by
  intro a ha b hb
  have := h _ (swapIdx_lt hi hk ha) _ (swapIdx_lt hi hk hb)
  rwa [kpermSwap_eq, kpermSwap_eq, kpermSwap_eq, kpermSwap_eq, swapIdx_swapIdx, swapIdx_swapIdx] at this

theorem Spec.SameOrder.mono {α β : Type} [LE α] [LE β] {m n : Nat} {w : Nat → α} {w' : Nat → β} (h : SameOrder n w w')
    (hm : m ≤ n) : SameOrder m w w' := fun a ha b hb => h a (by omega) b (by omega)

theorem kpermLoop_congr : ∀ (n : Nat) (w w' : Nat → Int) (p : Nat), SameOrder (n + 1) w w' →
    kpermLoop n w p = kpermLoop n w' p
  | 0, _, _, _, _ => rfl
  | n + 1, w, w', p, h => by
    have hk := maxPos_congr (i := n + 1) h
    have hle := maxPos_le w (n + 1)
    rw [kpermLoop, kpermLoop]
    rw [maxPos, maxPos] at hk
    rw [maxPos] at hle
    simp only [hk]
    rw [hk] at hle
    exact kpermLoop_congr n _ _ _ ((h.swap (by omega) (by omega)).mono (by omega))

theorem kpermLoop_form : ∀ (n : Nat) (w : Nat → Int) (p : Nat),
    kpermLoop n w p = p * (n + 1).factorial + kpermLoop n w 0 ∧ kpermLoop n w 0 < (n + 1).factorial
  | 0, w, p => by simp [kpermLoop]
  | n + 1, w, p => by
    have hle := maxPos_le w (n + 1)
    have h1 := kpermLoop_form n (kpermSwap w (n + 1) (maxPos w (n + 1))) ((n + 1 + 1) * p + maxPos w (n + 1))
    have h2 := kpermLoop_form n (kpermSwap w (n + 1) (maxPos w (n + 1))) ((n + 1 + 1) * 0 + maxPos w (n + 1))
    have e1 : ∀ p, kpermLoop (n + 1) w p =
      kpermLoop n (kpermSwap w (n + 1) (maxPos w (n + 1))) ((n + 1 + 1) * p + maxPos w (n + 1)) := fun p => rfl
    rw [e1, e1, h1.1, h2.1, Nat.factorial_succ (n + 1)]
    refine ⟨by ring, ?_⟩
    have h3 : maxPos w (n + 1) * (n + 1).factorial ≤ (n + 1) * (n + 1).factorial := Nat.mul_le_mul_right _ hle
    have h4 : (n + 1 + 1) * (n + 1).factorial = (n + 1) * (n + 1).factorial + (n + 1).factorial := by ring
    rw [Nat.mul_zero, Nat.zero_add, h4]
    omega

theorem Spec.Distinct.swap {w : Nat → Int} {n i k : Nat} (h : Distinct n w) (hi : i < n) (hk : k < n) :
    Distinct n (kpermSwap w i k) := by
  intro a ha b hb he
  rw [kpermSwap_eq, kpermSwap_eq] at he
  have := h _ (swapIdx_lt hi hk ha) _ (swapIdx_lt hi hk hb) he
  rw [← swapIdx_swapIdx i k a, this, swapIdx_swapIdx]

theorem kpermLoop_inj : ∀ (n : Nat) (w w' : Nat → Int), Distinct (n + 1) w → Distinct (n + 1) w' →
    kpermLoop n w 0 = kpermLoop n w' 0 → SameOrder (n + 1) w w'
  | 0, w, w', _, _, _ => fun a ha b hb => by
    rw [show a = 0 from by omega, show b = 0 from by omega]; simp
  | n + 1, w, w', hd, hd', he => by
    have hle := maxPos_le w (n + 1)
    have hle' := maxPos_le w' (n + 1)
    have e1 : ∀ w, kpermLoop (n + 1) w 0 =
      kpermLoop n (kpermSwap w (n + 1) (maxPos w (n + 1))) ((n + 1 + 1) * 0 + maxPos w (n + 1)) := fun p => rfl
    obtain ⟨h1, h2⟩ := kpermLoop_form n (kpermSwap w (n + 1) (maxPos w (n + 1))) ((n + 1 + 1) * 0 + maxPos w (n + 1))
    obtain ⟨h1', h2'⟩ := kpermLoop_form n (kpermSwap w' (n + 1) (maxPos w' (n + 1))) ((n + 1 + 1) * 0 + maxPos w' (n + 1))
    rw [e1, e1, h1, h1', Nat.mul_zero, Nat.zero_add, Nat.zero_add] at he
    have hF : 0 < (n + 1).factorial := Nat.factorial_pos _
    have hk : maxPos w (n + 1) = maxPos w' (n + 1) := by
      have := congrArg (· / (n + 1).factorial) he
      try simp only at this
      rw [Nat.mul_comm, Nat.mul_add_div hF, Nat.div_eq_of_lt h2, Nat.mul_comm, Nat.mul_add_div hF, Nat.div_eq_of_lt h2'] at this
      omega
    have hc : kpermLoop n (kpermSwap w (n + 1) (maxPos w (n + 1))) 0 = kpermLoop n (kpermSwap w' (n + 1) (maxPos w' (n + 1))) 0 := by
      rw [hk] at he ⊢; omega
    have ds := hd.swap (i := n + 1) (k := maxPos w (n + 1)) (by omega) (by omega)
    have ds' := hd'.swap (i := n + 1) (k := maxPos w' (n + 1)) (by omega) (by omega)
    have ih := kpermLoop_inj n _ _ (fun a ha b hb => ds a (by omega) b (by omega)) (fun a ha b hb => ds' a (by omega) b (by omega)) hc
    rw [← hk] at ih ds'
    have top : ∀ (u : Nat → Int), maxPos u (n + 1) = maxPos w (n + 1) → ∀ x < n + 1 + 1,
        kpermSwap u (n + 1) (maxPos w (n + 1)) x ≤ kpermSwap u (n + 1) (maxPos w (n + 1)) (n + 1) := by
      intro u hu x hx
      rw [kpermSwap_eq, kpermSwap_eq]
      have e : swapIdx (n + 1) (maxPos w (n + 1)) (n + 1) = maxPos w (n + 1) := by
        rw [swapIdx]; split
        · next h => exact h
        · rw [if_pos rfl]
      rw [e, ← hu]
      exact le_maxPos u (n + 1) _ (Nat.le_of_lt_succ (swapIdx_lt (by omega) (by omega) hx))
    have t1 := top w rfl
    have t2 := top w' hk.symm
    apply SameOrder.unswap (i := n + 1) (k := maxPos w (n + 1)) (by omega) (by omega)
    intro a ha b hb
    by_cases ha1 : a = n + 1
    · by_cases hb1 : b = n + 1
      · rw [ha1, hb1]; simp
      · subst ha1
        have l1 := t1 b hb
        have l2 := t2 b hb
        constructor
        · intro h
          exact absurd (ds _ ha _ hb (le_antisymm h l1)).symm hb1
        · intro h
          exact absurd (ds' _ ha _ hb (le_antisymm h l2)).symm hb1
    · by_cases hb1 : b = n + 1
      · subst hb1
        exact ⟨fun _ => t2 a ha, fun _ => t1 a ha⟩
      · exact ih a (by omega) b (by omega)

/-! ### C31 -/

/-- The five numbers that `kperm` looks at, as the `int`s it compares. -/
def kpermView (v : Nat → UInt) (o : Nat) : Nat → Int := fun i => (v ((i + o) % 5)).toInt

/-- **C31.** The cell is one of 120. -/
theorem C31_range (v : Nat → UInt) (o : Nat) : kperm v o < 120 := (kpermLoop_form 4 _ 0).2

/-- **C31.** Tuples of five different values have the same cell exactly if they are in the same relative order (as
signed integers). -/
theorem C31_order (v v' : Nat → UInt) (o o' : Nat) (hd : Distinct 5 (kpermView v o)) (hd' : Distinct 5 (kpermView v' o')) :
    kperm v o = kperm v' o' ↔ SameOrder 5 (kpermView v o) (kpermView v' o') :=
  ⟨fun h => kpermLoop_inj 4 _ _ hd hd' h, fun h => kpermLoop_congr 4 _ _ 0 h⟩

/-- All ways to insert `x` into a list. -/
def insertions (x : Nat) : List Nat → List (List Nat)
  | [] => [[x]]
  | y :: l => (x :: y :: l) :: (insertions x l).map (y :: ·)

/-- The orders of 0, 1, 2, 3, 4. -/
def orders5 : List (List Nat) := [0, 1, 2, 3, 4].foldr (fun x ls => ls.flatMap (insertions x)) [[]]

/-- **C31.** Every cell is used, by five different numbers. -/
theorem C31_onto : ∀ c < 120, ∃ l : List Nat, l.length = 5 ∧ l.Nodup ∧ (∀ x ∈ l, x < 5) ∧
    kperm (fun i => BitVec.ofNat 32 (l.getD i 0)) 0 = c := by
  have h : (List.range 120).all (fun c => orders5.any
      fun l => decide (l.length = 5) && (decide l.Nodup && (l.all (fun x => decide (x < 5)) &&
        decide (kperm (fun i => BitVec.ofNat 32 (l.getD i 0)) 0 = c)))) = true := by decide +kernel
  intro c hc
  have := List.all_eq_true.1 h c (List.mem_range.2 hc)
  obtain ⟨l, _, he⟩ := List.any_eq_true.1 this
  simp only [Bool.and_eq_true, decide_eq_true_eq, List.all_eq_true] at he
  exact ⟨l, he⟩

/-- For values below `2^31` the order is that of the unsigned values. -/
theorem C31_unsigned (v v' : Nat → UInt) (h : ∀ i < 5, (v i).toNat < 2 ^ 31) (h' : ∀ i < 5, (v' i).toNat < 2 ^ 31)
    (hd : Distinct 5 v) (hd' : Distinct 5 v') : kperm v 0 = kperm v' 0 ↔ SameOrder 5 v v' := by
  have e : ∀ (u : Nat → UInt), (∀ i < 5, (u i).toNat < 2 ^ 31) → ∀ i < 5, kpermView u 0 i = (u i).toNat := by
    intro u hu i hi
    rw [kpermView, Nat.add_zero, Nat.mod_eq_of_lt hi, BitVec.toInt_eq_toNat_of_lt (by have := hu i hi; omega)]
  have dd : ∀ (u : Nat → UInt), (∀ i < 5, (u i).toNat < 2 ^ 31) → Distinct 5 u → Distinct 5 (kpermView u 0) := by
    intro u hu hd a ha b hb he
    rw [e u hu a ha, e u hu b hb] at he
    exact hd a ha b hb (BitVec.eq_of_toNat_eq (by exact_mod_cast he))
  rw [C31_order v v' 0 0 (dd v h hd) (dd v' h' hd')]
  have key : ∀ a < 5, ∀ b < 5, ((kpermView v 0 a ≤ kpermView v 0 b ↔ kpermView v' 0 a ≤ kpermView v' 0 b) ↔ (v a ≤ v b ↔ v' a ≤ v' b)) := by
    intro a ha b hb
    rw [e v h a ha, e v h b hb, e v' h' a ha, e v' h' b hb, BitVec.le_def, BitVec.le_def, Int.ofNat_le, Int.ofNat_le]
  exact ⟨fun hs a ha b hb => (key a ha b hb).1 (hs a ha b hb), fun hs a ha b hb => (key a ha b hb).2 (hs a ha b hb)⟩

/-- For values of 32 bits it is not: these two tuples are in the same unsigned order. -/
theorem C31_signed : kperm (fun i => [0x80000000, 0, 1, 2, 3].getD i 0) 0 ≠ kperm (fun i => [4, 0, 1, 2, 3].getD i 0) 0 ∧
    SameOrder 5 (fun i => ([0x80000000, 0, 1, 2, 3] : List UInt).getD i 0) (fun i => ([4, 0, 1, 2, 3] : List UInt).getD i 0) := by
  refine ⟨by decide +kernel, ?_⟩
  unfold SameOrder
  decide +kernel

theorem operm5Loop_spec (src : Src) : ∀ (todo t : Nat) (v : Nat → UInt) (count : List Nat),
    (∀ i < 5, v ((i + t % 5) % 5) = src (t + i)) →
    Tallied (List.replicate 120 0) ((List.range t).map fun t => kperm (fun i => src (t + i)) 0) count →
    ∃ count', operm5Loop src todo (t + 5) v (t % 5) count = .ok count' ∧
      Tallied (List.replicate 120 0) ((List.range (t + todo)).map fun t => kperm (fun i => src (t + i)) 0) count'
  | 0, t, v, count, _, h => ⟨count, rfl, h⟩
  | todo + 1, t, v, count, hv, h => by
    have hk : kperm v (t % 5) = kperm (fun i => src (t + i)) 0 := by
      apply kpermLoop_congr 4
      intro a ha b hb
      simp only
      rw [hv a ha, hv b hb, Nat.add_zero, Nat.add_zero, Nat.mod_eq_of_lt ha, Nat.mod_eq_of_lt hb]
    obtain ⟨c1, a1, t1⟩ := h.bump (i := kperm (fun i => src (t + i)) 0) (by rw [List.length_replicate]; exact C31_range _ _)
    have t1' : Tallied (List.replicate 120 0) ((List.range (t + 1)).map fun t => kperm (fun i => src (t + i)) 0) c1 := by
      rw [List.range_succ (n := t), List.map_append]; exact t1
    obtain ⟨c2, a2, t2⟩ := operm5Loop_spec src todo (t + 1) (fun x => if x = t % 5 then src (t + 5) else v x) c1
      (fun i hi => by
        by_cases h4 : i = 4
        · rw [if_pos (by omega), h4, show t + 5 = t + 1 + 4 from by omega]
        · rw [if_neg (by omega), show (i + (t + 1) % 5) % 5 = (i + 1 + t % 5) % 5 from by omega, hv (i + 1) (by omega),
            show t + (i + 1) = t + 1 + i from by omega]) t1'
    refine ⟨c2, ?_, by rw [show t + (todo + 1) = t + 1 + todo from by omega]; exact t2⟩
    rw [operm5Loop, hk, a1, Res.bind_ok, show (t % 5 + 1) % 5 = (t + 1) % 5 from by omega,
      show t + 5 + 1 = t + 1 + 5 from by omega, a2]

theorem operm5NoLoop_spec (src : Src) : ∀ (todo t : Nat) (count : List Nat),
    Tallied (List.replicate 120 0) ((List.range t).map fun t => kperm (fun i => src (5 + 5 * t + i)) 0) count →
    ∃ count', operm5NoLoop src todo (5 + 5 * t) count = .ok count' ∧
      Tallied (List.replicate 120 0) ((List.range (t + todo)).map fun t => kperm (fun i => src (5 + 5 * t + i)) 0) count'
  | 0, t, count, h => ⟨count, rfl, h⟩
  | todo + 1, t, count, h => by
    obtain ⟨c1, a1, t1⟩ := h.bump (i := kperm (fun i => src (5 + 5 * t + i)) 0) (by rw [List.length_replicate]; exact C31_range _ _)
    have t1' : Tallied (List.replicate 120 0) ((List.range (t + 1)).map fun t => kperm (fun i => src (5 + 5 * t + i)) 0) c1 := by
      rw [List.range_succ (n := t), List.map_append]; exact t1
    obtain ⟨c2, a2, t2⟩ := operm5NoLoop_spec src todo (t + 1) c1 t1'
    refine ⟨c2, ?_, by rw [show t + (todo + 1) = t + 1 + todo from by omega]; exact t2⟩
    rw [operm5NoLoop, a1, Res.bind_ok, show 5 + 5 * t + 5 = 5 + 5 * (t + 1) from by omega, a2]

/-- **C31.** With overlapping samples step `t` uses the five draws `t, ..., t+4`; without, each step uses the next five
draws.  Each sample is counted once, in the cell of its order. -/
theorem C31_tally (overlap : Bool) (src : Src) (n : Nat) :
    ∃ count, operm5 overlap src n = .ok count ∧ count.length = 120 ∧ count.sum = n ∧
      ∀ c, count.getD c 0 = (List.range n).countP (fun t =>
        decide (kperm (fun i => src ((if overlap then t else 5 + 5 * t) + i)) 0 = c)) := by
  have key : ∀ (f : Nat → Nat) (count : List Nat), Tallied (List.replicate 120 0) ((List.range n).map f) count →
      count.length = 120 ∧ count.sum = n ∧ ∀ c, count.getD c 0 = (List.range n).countP (fun t => decide (f t = c)) := by
    intro f count h
    refine ⟨by rw [h.len, List.length_replicate], ?_, fun c => ?_⟩
    · rw [h.sum, List.length_map, List.length_range, List.sum_replicate_nat]; simp
    · have e0 : (List.replicate 120 0).getD c 0 = 0 := by
        simp only [List.getD, List.getElem?_replicate]; split <;> rfl
      rw [h.get, e0, Nat.zero_add, List.count, List.countP_map]
      apply List.countP_congr
      intro t _
      simp
  cases overlap with
  | true =>
    obtain ⟨count, h1, h2⟩ := operm5Loop_spec src n 0 src _ (fun i hi => by
      rw [Nat.zero_mod, Nat.add_zero, Nat.mod_eq_of_lt hi, Nat.zero_add]) (Tallied.nil _)
    rw [Nat.zero_add] at h2
    exact ⟨count, h1, key _ count h2⟩
  | false =>
    obtain ⟨count, h1, h2⟩ := operm5NoLoop_spec src n 0 _ (Tallied.nil _)
    rw [Nat.zero_add] at h2
    exact ⟨count, h1, key _ count h2⟩

example : kperm (fun i => [30, 10, 50, 20, 40].getD i 0) 0 = kperm (fun i => [3, 1, 5, 2, 4].getD i 0) 0 ∧
    kperm (fun i => [30, 10, 50, 20, 40].getD i 0) 0 ≠ kperm (fun i => [3, 2, 5, 1, 4].getD i 0) 0 := by decide +kernel

/-! ### C60 -/

/-- What `gsl_sort_index` promises: a permutation that puts the values in nondecreasing order.  Nothing is promised about
equal values. -/
def SortIndexOk (sortIndex : List UInt → List Nat) : Prop :=
  ∀ v, (sortIndex v).Perm (List.range v.length) ∧ (sortIndex v).Pairwise (fun a b => (v.getD a 0).toNat ≤ (v.getD b 0).toNat)

/-- What `gsl_permutation_init` and `gsl_permutation_next` promise: all permutations, each once. -/
def LookupOk (k : Nat) (lookup : List (List Nat)) : Prop :=
  lookup.Nodup ∧ ∀ p, p ∈ lookup ↔ p.Perm (List.range k)

theorem LookupOk.length {k : Nat} {lookup : List (List Nat)} (h : LookupOk k lookup) : lookup.length = k.factorial := by
  have : lookup.Perm (List.range k).permutations :=
    (List.perm_ext_iff_of_nodup h.1 (List.nodup_permutations _ List.nodup_range)).2 fun p => by
      rw [h.2, List.mem_permutations]
  rw [this.length_eq, List.length_permutations, List.length_range]

theorem permSearch_spec (ps : List Nat) (old : Nat) : ∀ (lookup : List (List Nat)) (i : Nat), ps ∈ lookup →
    permSearch ps old lookup i = i + lookup.idxOf ps
  | [], _, h => by simp at h
  | p :: lookup, i, h => by
    rw [permSearch]
    by_cases hp : ps = p
    · rw [if_pos hp, hp, List.idxOf_cons_self]; rfl
    · rw [if_neg hp, permSearch_spec ps old lookup (i + 1) ((List.mem_cons.1 h).resolve_left hp),
        List.idxOf_cons_ne _ (Ne.symm hp)]
      omega

theorem sortIndex_strict {sortIndex : List UInt → List Nat} (hs : SortIndexOk sortIndex) (v : List UInt)
    (hd : Distinct v.length (fun i => (v.getD i 0).toNat)) :
    (sortIndex v).Pairwise (fun a b => (v.getD a 0).toNat < (v.getD b 0).toNat) := by
  obtain ⟨h1, h2⟩ := hs v
  have hn : (sortIndex v).Nodup := h1.symm.nodup List.nodup_range
  have hm : ∀ a ∈ sortIndex v, a < v.length := fun a ha => List.mem_range.1 (h1.mem_iff.1 ha)
  refine List.Pairwise.imp_of_mem ?_ (List.pairwise_and_iff.2 ⟨h2, hn⟩)
  intro a b ha hb h
  rcases lt_or_eq_of_le h.1 with h3 | h3
  · exact h3
  · exact absurd (hd a (hm a ha) b (hm b hb) h3) h.2

theorem sortIndex_eq_iff {sortIndex : List UInt → List Nat} (hs : SortIndexOk sortIndex) (v v' : List UInt)
    (hl : v.length = v'.length) (hd : Distinct v.length (fun i => (v.getD i 0).toNat))
    (hd' : Distinct v'.length (fun i => (v'.getD i 0).toNat)) :
    sortIndex v = sortIndex v' ↔ SameOrder v.length (fun i => (v.getD i 0).toNat) (fun i => (v'.getD i 0).toNat) := by
  have s1 := sortIndex_strict hs v hd
  have s2 := sortIndex_strict hs v' hd'
  have p1 := (hs v).1
  have p2 := (hs v').1
  constructor
  · intro he a ha b hb
    obtain ⟨i, hi, rfl⟩ := List.mem_iff_getElem.1 (p1.mem_iff.2 (List.mem_range.2 ha))
    obtain ⟨j, hj, rfl⟩ := List.mem_iff_getElem.1 (p1.mem_iff.2 (List.mem_range.2 hb))
    rw [← he] at s2
    rcases Nat.lt_trichotomy i j with h | h | h
    · have a1 := List.pairwise_iff_getElem.1 s1 i j hi hj h
      have a2 := List.pairwise_iff_getElem.1 s2 i j hi hj h
      exact ⟨fun _ => a2.le, fun _ => a1.le⟩
    · subst h; simp
    · have a1 := List.pairwise_iff_getElem.1 s1 j i hj hi h
      have a2 := List.pairwise_iff_getElem.1 s2 j i hj hi h
      exact ⟨fun h => absurd a1 (not_lt.2 h), fun h => absurd a2 (not_lt.2 h)⟩
  · intro h
    have s2' : (sortIndex v').Pairwise (fun a b => (v.getD a 0).toNat < (v.getD b 0).toNat) := by
      refine List.Pairwise.imp_of_mem ?_ s2
      intro a b ha hb hlt
      have ha' := List.mem_range.1 (p2.mem_iff.1 ha)
      have hb' := List.mem_range.1 (p2.mem_iff.1 hb)
      exact not_le.1 fun hle => absurd hlt (not_lt.2 ((h b (by omega) a (by omega)).1 hle))
    refine List.Perm.eq_of_pairwise ?_ s1 s2' (p1.trans (by rw [hl]; exact p2.symm))
    intro a b _ _ h1 h2
    exact absurd h1 (lt_asymm h2)

/-- The number of the cell in which a tuple is counted: the place of its sorting permutation in the table. -/
def permCell (sortIndex : List UInt → List Nat) (lookup : List (List Nat)) (v : List UInt) : Nat :=
  permSearch (sortIndex v) 0 lookup 0

/-- **C60.** The cell is one of `k!`. -/
theorem C60_range {sortIndex : List UInt → List Nat} (hs : SortIndexOk sortIndex) {k : Nat} {lookup : List (List Nat)}
    (hl : LookupOk k lookup) (v : List UInt) (hv : v.length = k) : permCell sortIndex lookup v < k.factorial := by
  have hm : sortIndex v ∈ lookup := (hl.2 _).2 (by rw [← hv]; exact (hs v).1)
  rw [permCell, permSearch_spec _ _ _ _ hm, Nat.zero_add, ← hl.length]
  exact List.idxOf_lt_length_iff.2 hm

/-- **C60.** Tuples of `k` different values are counted in the same cell exactly if they are in the same relative
order. -/
theorem C60_order {sortIndex : List UInt → List Nat} (hs : SortIndexOk sortIndex) {k : Nat} {lookup : List (List Nat)}
    (hl : LookupOk k lookup) (v v' : List UInt) (hv : v.length = k) (hv' : v'.length = k)
    (hd : Distinct k (fun i => (v.getD i 0).toNat)) (hd' : Distinct k (fun i => (v'.getD i 0).toNat)) :
    permCell sortIndex lookup v = permCell sortIndex lookup v' ↔
      SameOrder k (fun i => (v.getD i 0).toNat) (fun i => (v'.getD i 0).toNat) := by
  have hm : sortIndex v ∈ lookup := (hl.2 _).2 (by rw [← hv]; exact (hs v).1)
  have hm' : sortIndex v' ∈ lookup := (hl.2 _).2 (by rw [← hv']; exact (hs v').1)
  have key := sortIndex_eq_iff hs v v' (hv.trans hv'.symm) (by rw [hv]; exact hd) (by rw [hv']; exact hd')
  rw [hv] at key
  rw [← key, permCell, permCell, permSearch_spec _ _ _ _ hm, permSearch_spec _ _ _ _ hm', Nat.zero_add, Nat.zero_add]
  exact List.idxOf_inj hm

theorem permLoop_spec {sortIndex : List UInt → List Nat} (hs : SortIndexOk sortIndex) {k : Nat} {lookup : List (List Nat)}
    (hl : LookupOk k lookup) (src : Src) (f0 : List Nat) (hf : f0.length = k.factorial) :
    ∀ (todo t permindex : Nat) (x : List Nat),
    Tallied f0 ((List.range t).map fun t => permCell sortIndex lookup ((List.range k).map fun i => src (k * t + i))) x →
    ∃ x', permLoop k sortIndex lookup src todo (k * t) permindex x = .ok x' ∧
      Tallied f0 ((List.range (t + todo)).map fun t =>
        permCell sortIndex lookup ((List.range k).map fun i => src (k * t + i))) x'
  | 0, t, _, x, h => ⟨x, rfl, h⟩
  | todo + 1, t, permindex, x, h => by
    have hlen : ((List.range k).map fun i => src (k * t + i)).length = k := by rw [List.length_map, List.length_range]
    have hm : sortIndex ((List.range k).map fun i => src (k * t + i)) ∈ lookup :=
      (hl.2 _).2 (by have := (hs ((List.range k).map fun i => src (k * t + i))).1; rwa [hlen] at this)
    have hc : permSearch (sortIndex ((List.range k).map fun i => src (k * t + i))) permindex lookup 0 =
        permCell sortIndex lookup ((List.range k).map fun i => src (k * t + i)) := by
      rw [permCell, permSearch_spec _ _ _ _ hm, permSearch_spec _ _ _ _ hm]
    obtain ⟨c1, a1, t1⟩ := h.bump (i := permCell sortIndex lookup ((List.range k).map fun i => src (k * t + i)))
      (by rw [hf]; exact C60_range hs hl _ hlen)
    have t1' : Tallied f0 ((List.range (t + 1)).map fun t =>
        permCell sortIndex lookup ((List.range k).map fun i => src (k * t + i))) c1 := by
      rw [List.range_succ (n := t), List.map_append]; exact t1
    obtain ⟨c2, a2, t2⟩ := permLoop_spec hs hl src f0 hf todo (t + 1)
      (permCell sortIndex lookup ((List.range k).map fun i => src (k * t + i))) c1 t1'
    refine ⟨c2, ?_, by rw [show t + (todo + 1) = t + 1 + todo from by omega]; exact t2⟩
    rw [permLoop]
    simp only [hc, a1, Res.bind_ok]
    rw [show k * t + k = k * (t + 1) from by ring]
    exact a2

/-- **C60.** Sample `t` consists of the draws `k*t, ..., k*t+k-1`, and each sample is counted once, in its cell.  (For
tuples with equal values `gsl_sort_index` chooses the cell.) -/
theorem C60_tally {sortIndex : List UInt → List Nat} (hs : SortIndexOk sortIndex) {lookup : Nat → List (List Nat)}
    (hl : ∀ k, LookupOk k (lookup k)) (ntuple k : Nat) (hk : k = if ntuple < 2 then 5 else ntuple) (hk12 : k ≤ 12)
    (src : Src) (n : Nat) :
    ∃ x, rgbPermutations ntuple sortIndex lookup src n = .ok x ∧ x.length = k.factorial ∧ x.sum = n ∧
      ∀ c, x.getD c 0 = (List.range n).countP (fun t =>
        decide (permCell sortIndex (lookup k) ((List.range k).map fun i => src (k * t + i)) = c)) := by
  have hfac : k.factorial < 2 ^ 32 := by
    have : k.factorial ≤ (12).factorial := Nat.factorial_le hk12
    have : (12).factorial < 2 ^ 32 := by decide
    omega
  obtain ⟨x, h1, h⟩ := permLoop_spec hs (hl k) src (List.replicate k.factorial 0) List.length_replicate n 0 0 _ (Tallied.nil _)
  rw [Nat.zero_add] at h
  refine ⟨x, ?_, by rw [h.len, List.length_replicate], ?_, fun c => ?_⟩
  · rw [rgbPermutations]
    simp only [← hk]
    rw [if_pos hfac]
    exact h1
  · rw [h.sum, List.length_map, List.length_range, List.sum_replicate_nat]; simp
  · have e0 : (List.replicate k.factorial 0).getD c 0 = 0 := by
      simp only [List.getD, List.getElem?_replicate]; split <;> rfl
    rw [h.get, e0, Nat.zero_add, List.count, List.countP_map]
    apply List.countP_congr
    intro t _
    simp

/-- **C60, limit.** For `k >= 13` the number of permutations does not fit in an `unsigned int`. -/
theorem C60_too_large (sortIndex : List UInt → List Nat) (lookup : Nat → List (List Nat)) (ntuple : Nat)
    (h : 13 ≤ ntuple) (src : Src) (n : Nat) : rgbPermutations ntuple sortIndex lookup src n = .ub := by
  rw [rgbPermutations]
  simp only [if_neg (show ¬ ntuple < 2 by omega)]
  have : (13).factorial ≤ ntuple.factorial := Nat.factorial_le h
  have h13 : 2 ^ 32 ≤ (13).factorial := by decide
  rw [if_neg (by omega)]

/-- A sorting function that keeps the promise. -/
def mergeIndex (v : List UInt) : List Nat := (List.range v.length).mergeSort (fun a b => decide ((v.getD a 0).toNat ≤ (v.getD b 0).toNat))

theorem mergeIndex_ok : SortIndexOk mergeIndex := fun v => by
  refine ⟨List.mergeSort_perm _ _, ?_⟩
  have := List.pairwise_mergeSort (le := fun a b => decide ((v.getD a 0).toNat ≤ (v.getD b 0).toNat))
    (fun a b c h1 h2 => by
      simp only [decide_eq_true_eq] at h1 h2 ⊢
      exact le_trans h1 h2)
    (fun a b => by
      have := Nat.le_total (v.getD a 0).toNat (v.getD b 0).toNat
      simp only [Bool.or_eq_true, decide_eq_true_eq]
      exact this) (List.range v.length)
  exact this.imp (fun h => by simpa using h)

theorem permutations_ok (k : Nat) : LookupOk k (List.range k).permutations :=
  ⟨List.nodup_permutations _ List.nodup_range, fun _ => List.mem_permutations⟩

/-- The promises can be kept, so the theorems about C60 apply. -/
example (src : Src) : ∃ x, rgbPermutations 0 mergeIndex (fun k => (List.range k).permutations) src 1000 = .ok x ∧
    x.length = 120 ∧ x.sum = 1000 := by
  obtain ⟨x, h1, h2, h3, _⟩ := C60_tally mergeIndex_ok permutations_ok 0 5 rfl (by omega) src 1000
  exact ⟨x, h1, h2, h3⟩

/-- Two tuples in the same order, and one in another order. -/
example : permCell mergeIndex (List.range 3).permutations [10, 30, 20] = permCell mergeIndex (List.range 3).permutations [0, 9, 5] ∧
    permCell mergeIndex (List.range 3).permutations [10, 30, 20] ≠ permCell mergeIndex (List.range 3).permutations [10, 20, 30] := by
  have d : ∀ v : List UInt, v = [10, 30, 20] ∨ v = [0, 9, 5] ∨ v = [10, 20, 30] → Distinct 3 (fun i => (v.getD i 0).toNat) := by
    rintro v (rfl | rfl | rfl) <;> unfold Distinct <;> decide
  rw [C60_order mergeIndex_ok (permutations_ok 3) _ _ rfl rfl (d _ (by simp)) (d _ (by simp)), Ne,
    C60_order mergeIndex_ok (permutations_ok 3) _ _ rfl rfl (d _ (by simp)) (d _ (by simp))]
  unfold SameOrder
  exact ⟨by decide, by decide⟩

end Dh
