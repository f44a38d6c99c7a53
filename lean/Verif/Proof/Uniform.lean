import Mathlib.Tactic.Linarith
import Mathlib.Tactic.Ring
import Mathlib.Tactic.FieldSimp
import Mathlib.Data.Real.Basic
import Mathlib.Data.Fintype.Pi
import Mathlib.Data.Fintype.BigOperators
import Mathlib.Algebra.BigOperators.Field
import Mathlib.Algebra.BigOperators.Ring.Finset
import Mathlib.Logic.Equiv.Set
import Batteries.Data.Nat.Lemmas
import Verif.Basic
/-
Averages over finite sets of equally likely inputs, uniform draws of a generator, and the moments of the number of
values that do not occur among independent uniform values.
-/
namespace Dh
namespace Spec

/-- The expectation of `f` when all `ω` are equally likely. -/
noncomputable def mean {Ω : Type*} [Fintype Ω] (f : Ω → ℝ) : ℝ := (∑ ω, f ω) / Fintype.card Ω

/-- The variance of `f` when all `ω` are equally likely. -/
noncomputable def var {Ω : Type*} [Fintype Ω] (f : Ω → ℝ) : ℝ := mean fun ω => (f ω - mean f) ^ 2

/-- The draws of a generator of `r`-bit values, given the `r` bits of each of the first `k` of them (bit `j` of draw `i` is
`b (i, j)`).  When all `b` are equally likely, these are `k` independent, uniformly distributed `r`-bit values; see
`bitSrc_bijective`. -/
def bitSrc {k r : Nat} (b : Fin k × Fin r → Bool) (i : Nat) : UInt :=
  if h : i < k then BitVec.ofNat 32 (Nat.ofBits fun j : Fin r => b (⟨i, h⟩, j)) else 0

end Spec
open Spec

section mean
variable {Ω Ω' : Type*} [Fintype Ω] [Fintype Ω']

theorem mean_congr {f g : Ω → ℝ} (h : ∀ ω, f ω = g ω) : mean f = mean g := by
  rw [show f = g from funext h]

theorem mean_equiv (e : Ω ≃ Ω') (f : Ω' → ℝ) : mean (fun ω => f (e ω)) = mean f := by
  rw [mean, mean, Equiv.sum_comp e f, Fintype.card_congr e]

theorem mean_const [Nonempty Ω] (c : ℝ) : mean (fun _ : Ω => c) = c := by
  rw [mean, Finset.sum_const, Finset.card_univ, nsmul_eq_mul]
  have : (Fintype.card Ω : ℝ) ≠ 0 := by exact_mod_cast Fintype.card_ne_zero
  field_simp

theorem mean_add (f g : Ω → ℝ) : mean (fun ω => f ω + g ω) = mean f + mean g := by
  rw [mean, mean, mean, Finset.sum_add_distrib, add_div]

theorem mean_sub (f g : Ω → ℝ) : mean (fun ω => f ω - g ω) = mean f - mean g := by
  rw [mean, mean, mean, Finset.sum_sub_distrib, sub_div]

theorem mean_mul_left (c : ℝ) (f : Ω → ℝ) : mean (fun ω => c * f ω) = c * mean f := by
  rw [mean, mean, ← Finset.mul_sum, mul_div_assoc]

theorem mean_div (f : Ω → ℝ) (c : ℝ) : mean (fun ω => f ω / c) = mean f / c := by
  rw [mean, mean, ← Finset.sum_div, div_right_comm]

theorem mean_sum {ι : Type*} (s : Finset ι) (f : ι → Ω → ℝ) : mean (fun ω => ∑ i ∈ s, f i ω) = ∑ i ∈ s, mean (f i) := by
  simp only [mean]
  rw [Finset.sum_comm, Finset.sum_div]

/-- The probability of an event. -/
theorem mean_indicator (p : Ω → Prop) [DecidablePred p] :
    mean (fun ω => if p ω then (1 : ℝ) else 0) = ((Finset.univ.filter p).card : ℝ) / Fintype.card Ω := by
  rw [mean, Finset.sum_boole]

theorem mean_prod_fst [Nonempty Ω'] (f : Ω → ℝ) : mean (fun ω : Ω × Ω' => f ω.1) = mean f := by
  have : (Fintype.card Ω' : ℝ) ≠ 0 := by exact_mod_cast Fintype.card_ne_zero
  rw [mean, mean, Fintype.sum_prod_type]
  simp only [Finset.sum_const, Finset.card_univ, nsmul_eq_mul, Fintype.card_prod, Nat.cast_mul]
  rw [← Finset.mul_sum, mul_comm (Fintype.card Ω : ℝ), mul_div_mul_left _ _ this]

theorem var_eq [Nonempty Ω] (f : Ω → ℝ) : var f = mean (fun ω => f ω ^ 2) - mean f ^ 2 := by
  rw [var]
  have : ∀ ω, (f ω - mean f) ^ 2 = f ω ^ 2 - 2 * mean f * f ω + mean f ^ 2 := fun ω => by ring
  rw [mean_congr this, mean_add, mean_sub, mean_mul_left, mean_const]
  ring

end mean

/-- Reading only some of the coordinates (each at most once) of uniformly random coordinates gives uniformly random
values. -/
theorem mean_restrict {I J A : Type*} [Fintype I] [Fintype J] [Fintype A] [Nonempty A] [DecidableEq I] [DecidableEq J]
    (ι : I → J) (hι : Function.Injective ι) (f : (I → A) → ℝ) :
    mean (fun b : J → A => f (fun i => b (ι i))) = mean f := by
  classical
  let e : J ≃ I ⊕ ↥((Set.range ι)ᶜ) :=
    (Equiv.Set.sumCompl (Set.range ι)).symm.trans ((Equiv.ofInjective ι hι).symm.sumCongr (Equiv.refl _))
  let e2 : (J → A) ≃ (I → A) × (↥((Set.range ι)ᶜ) → A) := (e.arrowCongr (Equiv.refl A)).trans (Equiv.sumArrowEquivProdArrow _ _ _)
  have h : ∀ b : J → A, (e2 b).1 = fun i => b (ι i) := by
    intro b
    funext i
    have : e.symm (Sum.inl i) = ι i := rfl
    show b (e.symm (Sum.inl i)) = b (ι i)
    rw [this]
  rw [← mean_prod_fst (Ω' := ↥((Set.range ι)ᶜ) → A) f, ← mean_equiv e2]
  exact mean_congr fun b => by rw [h]

/-! ### The draws of a generator -/

theorem bitSrc_getLsbD {k r : Nat} (hr : r ≤ 32) (b : Fin k × Fin r → Bool) (i : Fin k) (j : Fin r) :
    (bitSrc b i).getLsbD j = b (i, j) := by
  rw [bitSrc, dif_pos i.2, BitVec.getLsbD_ofNat, Nat.testBit_ofBits_lt _ _ j.2]
  simp [lt_of_lt_of_le j.2 hr]

theorem bitSrc_toNat {k r : Nat} (hr : r ≤ 32) (b : Fin k × Fin r → Bool) (i : Nat) : (bitSrc b i).toNat < 2 ^ r := by
  rw [bitSrc]
  split
  · rw [BitVec.toNat_ofNat]
    exact lt_of_le_of_lt (Nat.mod_le _ _) (Nat.ofBits_lt_two_pow _)
  · exact Nat.two_pow_pos r

/-- Every sequence of `k` values of `r` bits comes from exactly one `b`. -/
theorem bitSrc_bijective {k r : Nat} (hr : r ≤ 32) :
    Function.Bijective (fun (b : Fin k × Fin r → Bool) (i : Fin k) => (⟨bitSrc b i, bitSrc_toNat hr b i⟩ : {x : UInt // x.toNat < 2 ^ r})) := by
  constructor
  · intro b c h
    funext ⟨i, j⟩
    have h1 : bitSrc b i = bitSrc c i := congrArg Subtype.val (congrFun h i)
    have h2 := bitSrc_getLsbD hr b i j
    rw [h1, bitSrc_getLsbD hr] at h2
    exact h2.symm
  · intro w
    refine ⟨fun p => (w p.1).1.getLsbD p.2, ?_⟩
    funext i
    apply Subtype.ext
    apply BitVec.eq_of_toNat_eq
    show (bitSrc _ _).toNat = _
    rw [bitSrc, dif_pos i.2]
    have : (fun j : Fin r => (w i).1.getLsbD j) = fun j : Fin r => (w i).1.toNat.testBit j := by
      funext j; rw [BitVec.testBit_toNat]
    simp only
    rw [show (⟨(i : Nat), i.2⟩ : Fin k) = i from rfl, this, Nat.ofBits_testBit, Nat.mod_eq_of_lt (w i).2, BitVec.ofNat_toNat,
      BitVec.setWidth_eq]

/-! ### Values that do not occur -/

section missing
variable {A : Type*} [Fintype A] [DecidableEq A]

/-- The number of values that do not occur among `X 0, ..., X (n-1)`. -/
def missCount {n : Nat} (X : Fin n → A) : Nat := (Finset.univ.filter fun a => ∀ t, X t ≠ a).card

theorem avoid_card (n : Nat) (S : Finset A) :
    (Finset.univ.filter fun X : Fin n → A => ∀ t, X t ∉ S).card = (Fintype.card A - S.card) ^ n := by
  have : (Finset.univ.filter fun X : Fin n → A => ∀ t, X t ∉ S) = Fintype.piFinset fun _ => Sᶜ := by
    ext X; simp [Fintype.mem_piFinset]
  rw [this, Fintype.card_piFinset]
  simp [Finset.card_compl]

theorem avoid_prob [Nonempty A] (n : Nat) (S : Finset A) :
    mean (fun X : Fin n → A => if ∀ t, X t ∉ S then (1 : ℝ) else 0) = (1 - S.card / Fintype.card A) ^ n := by
  have hA : (Fintype.card A : ℝ) ≠ 0 := by exact_mod_cast Fintype.card_ne_zero
  rw [mean_indicator, avoid_card, Fintype.card_fun, Fintype.card_fin, Nat.cast_pow, Nat.cast_pow,
    Nat.cast_sub (Finset.card_le_univ S), ← div_pow]
  congr 1
  field_simp

theorem missCount_eq {n : Nat} (X : Fin n → A) : (missCount X : ℝ) = ∑ a, if ∀ t, X t ∉ ({a} : Finset A) then (1 : ℝ) else 0 := by
  rw [missCount, Finset.sum_boole]
  simp

theorem missCount_mean [Nonempty A] (n : Nat) :
    mean (fun X : Fin n → A => (missCount X : ℝ)) = Fintype.card A * (1 - 1 / Fintype.card A) ^ n := by
  rw [mean_congr missCount_eq, mean_sum]
  simp only [avoid_prob, Finset.card_singleton, Nat.cast_one, Finset.sum_const, Finset.card_univ, nsmul_eq_mul]

theorem missCount_sq [Nonempty A] (n : Nat) :
    mean (fun X : Fin n → A => (missCount X : ℝ) ^ 2) =
      Fintype.card A * (1 - 1 / Fintype.card A) ^ n + Fintype.card A * (Fintype.card A - 1) * (1 - 2 / Fintype.card A) ^ n := by
  have h : ∀ X : Fin n → A, (missCount X : ℝ) ^ 2 = ∑ a, ∑ c, if ∀ t, X t ∉ ({a, c} : Finset A) then (1 : ℝ) else 0 := by
    intro X
    rw [pow_two, missCount_eq, Finset.sum_mul_sum]
    refine Finset.sum_congr rfl fun a _ => Finset.sum_congr rfl fun c _ => ?_
    have e : (∀ t, X t ∉ ({a, c} : Finset A)) ↔ (∀ t, X t ∉ ({a} : Finset A)) ∧ ∀ t, X t ∉ ({c} : Finset A) := by
      rw [← forall_and]
      exact forall_congr' fun t => by simp
    by_cases h1 : ∀ t, X t ∉ ({a} : Finset A)
    · by_cases h2 : ∀ t, X t ∉ ({c} : Finset A)
      · rw [if_pos h1, if_pos h2, if_pos (e.2 ⟨h1, h2⟩), one_mul]
      · rw [if_neg h2, if_neg fun h => h2 (e.1 h).2, mul_zero]
    · rw [if_neg h1, if_neg fun h => h1 (e.1 h).1, zero_mul]
  rw [mean_congr h, mean_sum]
  simp only [mean_sum, avoid_prob]
  have h2 : ∀ a : A, ∑ c, (1 - (({a, c} : Finset A).card : ℝ) / Fintype.card A) ^ n =
      (1 - 1 / Fintype.card A) ^ n + (Fintype.card A - 1) * (1 - 2 / Fintype.card A) ^ n := by
    intro a
    rw [← Finset.add_sum_erase _ _ (Finset.mem_univ a)]
    congr 1
    · simp
    · rw [Finset.sum_congr rfl fun c hc => by rw [Finset.card_pair (Finset.ne_of_mem_erase hc).symm], Finset.sum_const,
        Finset.card_erase_of_mem (Finset.mem_univ a), Finset.card_univ, nsmul_eq_mul, Nat.cast_sub Fintype.card_pos]
      norm_num
  rw [Finset.sum_congr rfl fun a _ => h2 a, Finset.sum_const, Finset.card_univ, nsmul_eq_mul]
  ring

theorem missCount_var [Nonempty A] (n : Nat) :
    var (fun X : Fin n → A => (missCount X : ℝ)) =
      Fintype.card A * (1 - 1 / Fintype.card A) ^ n + Fintype.card A * (Fintype.card A - 1) * (1 - 2 / Fintype.card A) ^ n -
      (Fintype.card A * (1 - 1 / Fintype.card A) ^ n) ^ 2 := by
  rw [var_eq, missCount_sq, missCount_mean]

end missing

end Dh
