import Verif.Proof.BlockTrials
import Verif.Props.RandBits
import Verif.Props.WordTests
import Verif.Model.BitdistStat
import Mathlib.Logic.Equiv.Fin.Basic
import Mathlib.Data.Nat.Choose.Sum
/-
C98: the tuples of rgb_bitdist as blocks of bits; the binomial law of the number of equal tuples.
-/
namespace Dh
open Spec

/-! ### The values drawn -/

/-- The tuple of `nb` bits from bit `k` on. -/
def Spec.tupleWord (r : Nat) (src : Src) (nb k : Nat) : UInt := valMsb ((List.range nb).map fun i => msbCat r src (k + i))

theorem tupleWord_bit (r : Nat) (src : Src) (nb k i : Nat) (hnb : nb ≤ 32) :
    (tupleWord r src nb k).getLsbD i = (decide (i < nb) && msbCat r src (k + (nb - 1 - i))) := by
  by_cases hi : i < 32
  · rw [tupleWord, valMsb_getLsbD _ i hi, List.length_map, List.length_range]
    by_cases h : i < nb
    · have h2 : nb - 1 - i < nb := by omega
      simp [h, List.getD_eq_getElem?_getD, List.getElem?_range h2]
    · simp [h]
  · rw [BitVec.getLsbD_of_ge _ _ (by omega)]
    have : ¬ i < nb := by omega
    simp [this]

theorem tupleWord_lt (r : Nat) (src : Src) (nb k : Nat) (hnb : nb ≤ 32) : (tupleWord r src nb k).toNat < 2 ^ nb := by
  refine Nat.lt_pow_two_of_testBit _ fun i hi => ?_
  have := tupleWord_bit r src nb k i hnb
  rw [BitVec.getLsbD] at this
  rw [this]
  simp [Nat.not_lt.2 hi]

theorem tupleWord_eq (r : Nat) (src : Src) (nb k v : Nat) (hnb : nb ≤ 32) (hv : v < 2 ^ nb) :
    (tupleWord r src nb k).toNat = v ↔ ∀ i : Fin nb, msbCat r src (k + i) = v.testBit (nb - 1 - i) := by
  have hb : ∀ i, (tupleWord r src nb k).toNat.testBit i = (decide (i < nb) && msbCat r src (k + (nb - 1 - i))) := fun i => tupleWord_bit r src nb k i hnb
  constructor
  · intro h i
    have := hb (nb - 1 - i)
    have h1 := i.2
    rw [h, show nb - 1 - (nb - 1 - (i : Nat)) = i by omega, decide_eq_true (by omega), Bool.true_and] at this
    exact this.symm
  · intro h
    refine Nat.eq_of_testBit_eq fun i => ?_
    rw [hb]
    by_cases hi : i < nb
    · have := h ⟨nb - 1 - i, by omega⟩
      simp only at this
      rw [decide_eq_true hi, Bool.true_and, this]
      congr 1
      omega
    · rw [Nat.testBit_lt_two_pow (lt_of_lt_of_le hv (Nat.pow_le_pow_right (by norm_num) (by omega)))]
      simp [hi]

theorem serve_tuples (r : Nat) (src : Src) (nb : Nat) (hr : 0 < r) (hne : nb ≠ r) : ∀ N k,
    (Queue.serve r src (List.replicate N nb) ⟨(List.range (if k % r = 0 then 0 else r - k % r)).map
      (fun j => (src (k / r)).getLsbD (r - 1 - (k % r + j))), if k % r = 0 then k / r else k / r + 1⟩).1 =
      (List.range N).map fun j => tupleWord r src nb (k + nb * j) := by
  intro N
  induction N with
  | zero => intro k; rfl
  | succ N ih =>
    intro k
    rw [List.replicate_succ, Queue.serve]
    simp only [hne, if_false, popN_stream r src hr nb k]
    rw [ih (k + nb), List.range_succ_eq_map, List.map_cons, List.map_map]
    congr 1
    refine List.map_congr_left fun j _ => ?_
    simp only [Function.comp, Nat.succ_eq_add_one]
    congr 1
    ring

theorem serve_words (r : Nat) (src : Src) (hr : 0 < r) (h32 : r ≤ 32) (hw : Width r src) : ∀ N q,
    (Queue.serve r src (List.replicate N r) ⟨[], q⟩).1 = (List.range N).map fun j => tupleWord r src r (r * q + r * j) := by
  intro N
  induction N with
  | zero => intro k; rfl
  | succ N ih =>
    intro q
    rw [List.replicate_succ, Queue.serve]
    simp only [if_true]
    rw [ih (q + 1), List.range_succ_eq_map, List.map_cons, List.map_map]
    congr 1
    · refine BitVec.eq_of_getLsbD_eq fun i hi => ?_
      rw [tupleWord_bit r src r _ i h32]
      by_cases h : i < r
      · rw [decide_eq_true h, Bool.true_and, msbCat, Nat.mul_zero, Nat.add_zero, Nat.mul_add_div hr, Nat.div_eq_of_lt (a := r - 1 - i) (by omega),
          Nat.mul_add_mod, Nat.mod_eq_of_lt (a := r - 1 - i) (by omega), Nat.add_zero, show r - 1 - (r - 1 - i) = i by omega]
      · rw [hw _ _ (by omega)]
        simp [h]
    · refine List.map_congr_left fun j _ => ?_
      simp only [Function.comp, Nat.succ_eq_add_one]
      congr 1
      ring

theorem tupleMask (nb : Nat) (h : nb < 32) : ∀ i < 32, ((1#32 <<< nb) - 1#32).getLsbD i = decide (i < nb) := by
  revert h
  revert nb
  decide +kernel

/-- The values that `rgb_bitdist` draws are the consecutive tuples of `nb` bits. -/
theorem bitdist_values (r : Nat) (src : Src) (nb N : Nat) (hr : 0 < r) (h32 : r ≤ 32) (hw : Width r src) (hnb : nb < 32) :
    ∃ s, getRandBitsUints r src (List.replicate N (nb, (1#32 <<< nb) - 1#32)) GBState.init =
      .ok ((List.range N).map fun j => tupleWord r src nb (nb * j), s) := by
  obtain ⟨s, h⟩ := C07_get_rand_bits_uint r src hr h32 hw (List.replicate N (nb, (1#32 <<< nb) - 1#32)) (fun p hp => by
    rw [List.eq_of_mem_replicate hp]
    exact ⟨hnb.le, Or.inr (Or.inr (tupleMask nb hnb))⟩)
  refine ⟨s, h.trans ?_⟩
  rw [List.map_replicate]
  by_cases hne : nb = r
  · subst hne
    have := serve_words nb src hr h32 hw N 0
    rw [this]
    simp
  · have := serve_tuples r src nb hr hne N 0
    simp only [Nat.zero_mod, if_true, Nat.zero_div, List.range_zero, List.map_nil, Nat.zero_add] at this
    rw [this]

/-! ### The binomial law -/

/-- The number of places with the value `a`. -/
def hits {A : Type*} [DecidableEq A] {n : Nat} (a : A) (g : Fin n → A) : Nat := (Finset.univ.filter fun i => g i = a).card

theorem hits_cons {A : Type*} [DecidableEq A] {n : Nat} (a x : A) (g : Fin n → A) :
    hits a (Fin.cons x g : Fin (n + 1) → A) = (if x = a then 1 else 0) + hits a g := by
  rw [hits, hits, Finset.card_filter, Fin.sum_univ_succ, Finset.card_filter]
  simp

theorem mean_consPair {A : Type*} [Fintype A] (n : Nat) (F : (Fin (n + 1) → A) → ℝ) :
    mean F = mean fun x : A => mean fun g : Fin n → A => F (Fin.cons x g) := by
  rw [← mean_equiv (Fin.consEquiv fun _ : Fin (n + 1) => A) F]
  simp only [mean]
  rw [Fintype.sum_prod_type, Fintype.card_prod, Nat.cast_mul, ← Finset.sum_div, div_div, mul_comm (Fintype.card A : ℝ)]
  rfl

theorem binomial_law {A : Type*} [Fintype A] [DecidableEq A] (a : A) : ∀ n c : Nat,
    (mean fun g : Fin n → A => if hits a g = c then (1 : ℝ) else 0) =
      (n.choose c : ℝ) * (1 / Fintype.card A) ^ c * (1 - 1 / Fintype.card A) ^ (n - c) := by
  have hne : Nonempty A := ⟨a⟩
  have hA : (Fintype.card A : ℝ) ≠ 0 := by exact_mod_cast Fintype.card_ne_zero
  intro n
  induction n with
  | zero =>
    intro c
    cases c with
    | zero => simp [hits, mean_const]
    | succ c => simp [hits, mean_const]
  | succ n ih =>
    intro c
    rw [mean_consPair]
    have e : ∀ x : A, (mean fun g : Fin n → A => if hits a (Fin.cons x g : Fin (n + 1) → A) = c then (1 : ℝ) else 0) =
        (if x = a then 1 else 0) * ((mean fun g : Fin n → A => if 1 + hits a g = c then (1 : ℝ) else 0) - mean fun g : Fin n → A => if hits a g = c then (1 : ℝ) else 0) +
          mean fun g : Fin n → A => if hits a g = c then (1 : ℝ) else 0 := by
      intro x
      simp only [hits_cons]
      by_cases h : x = a
      · simp [h]
      · simp [h]
    rw [mean_congr e, mean_add, mean_const]
    have e2 : ∀ D : ℝ, (mean fun x : A => (if x = a then 1 else 0) * D) = 1 / Fintype.card A * D := by
      intro D
      rw [mean, ← Finset.sum_mul, Finset.sum_ite_eq' Finset.univ a, if_pos (Finset.mem_univ _)]
      ring
    rw [e2]
    set p : ℝ := 1 / Fintype.card A
    cases c with
    | zero =>
      have e3 : (mean fun g : Fin n → A => if 1 + hits a g = 0 then (1 : ℝ) else 0) = 0 := by
        exact (mean_congr fun g => if_neg (by omega)).trans (mean_const (Ω := Fin n → A) 0)
      rw [e3, ih 0]
      simp only [Nat.choose_zero_right, Nat.sub_zero, pow_zero, pow_succ]
      push_cast
      ring
    | succ c =>
      have e3 : (mean fun g : Fin n → A => if 1 + hits a g = c + 1 then (1 : ℝ) else 0) = mean fun g : Fin n → A => if hits a g = c then (1 : ℝ) else 0 :=
        mean_congr fun g => by simp only [Nat.add_comm 1, Nat.add_right_cancel_iff]
      rw [e3, ih c, ih (c + 1), Nat.choose_succ_succ, Nat.add_sub_add_right]
      push_cast
      by_cases hc : c + 1 ≤ n
      · rw [show n - c = n - (c + 1) + 1 by omega, pow_succ, pow_succ]
        ring
      · rw [Nat.choose_eq_zero_of_lt (show n < c + 1 by omega)]
        push_cast
        rw [pow_succ]
        ring

end Dh
