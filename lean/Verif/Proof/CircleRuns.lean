import Mathlib.Data.Finset.Powerset
import Mathlib.Data.Nat.Choose.Basic
import Mathlib.Data.Fintype.Powerset
import Mathlib.Algebra.BigOperators.Field
import Mathlib.Algebra.BigOperators.Group.Finset.Sigma
import Mathlib.Algebra.BigOperators.Ring.Finset
import Mathlib.Tactic.Ring
import Mathlib.Tactic.Linarith
import Mathlib.Tactic.FieldSimp
import Mathlib.Data.Rat.Cast.Order
import Mathlib.Data.Real.Basic
import Mathlib.Logic.Equiv.Fin.Rotate
/-
Runs on a circle with a given number of ones: the mean and the variance.
-/
namespace Dh

section
variable {α : Type*} [Fintype α] [DecidableEq α]

/-- The sets of a given size that contain `A` and avoid `B`. -/
theorem card_between (A B : Finset α) (hAB : Disjoint A B) (κ : Nat) :
    ((Finset.univ.powersetCard κ).filter fun S : Finset α => A ⊆ S ∧ Disjoint B S).card =
      if A.card ≤ κ then (Fintype.card α - A.card - B.card).choose (κ - A.card) else 0 := by
  split
  · rename_i hA
    have hc : ((A ∪ B)ᶜ : Finset α).card = Fintype.card α - A.card - B.card := by
      rw [Finset.card_compl, Finset.card_union_of_disjoint hAB]
      omega
    rw [← hc, ← Finset.card_powersetCard]
    refine Finset.card_nbij' (fun S => S \ A) (fun T => T ∪ A) ?_ ?_ ?_ ?_
    · intro S hS
      simp only [Finset.mem_coe, Finset.mem_filter, Finset.mem_powersetCard] at hS ⊢
      obtain ⟨⟨-, h1⟩, h2, h3⟩ := hS
      refine ⟨fun a ha => ?_, ?_⟩
      · rw [Finset.mem_sdiff] at ha
        rw [Finset.mem_compl, Finset.mem_union]
        rintro (h | h)
        · exact ha.2 h
        · exact (Finset.disjoint_left.1 h3 h) ha.1
      · rw [Finset.card_sdiff_of_subset h2, h1]
    · intro T hT
      simp only [Finset.mem_coe, Finset.mem_filter, Finset.mem_powersetCard] at hT ⊢
      obtain ⟨h1, h2⟩ := hT
      have hd : Disjoint T A := Finset.disjoint_left.2 fun a ha h => by
        have := Finset.mem_compl.1 (h1 ha)
        exact this (Finset.mem_union_left _ h)
      refine ⟨⟨Finset.subset_univ _, ?_⟩, Finset.subset_union_right, ?_⟩
      · rw [Finset.card_union_of_disjoint hd, h2]
        omega
      · rw [Finset.disjoint_union_right]
        refine ⟨Finset.disjoint_left.2 fun a ha h => ?_, hAB.symm⟩
        exact (Finset.mem_compl.1 (h1 h)) (Finset.mem_union_right _ ha)
    · intro S hS
      simp only [Finset.mem_coe, Finset.mem_filter] at hS
      exact Finset.sdiff_union_of_subset hS.2.1
    · intro T hT
      simp only [Finset.mem_coe, Finset.mem_powersetCard] at hT
      have hd : Disjoint T A := Finset.disjoint_left.2 fun a ha h => by
        have := Finset.mem_compl.1 (hT.1 ha)
        exact this (Finset.mem_union_left _ h)
      exact Finset.union_sdiff_cancel_right hd
  · rename_i hA
    rw [Finset.card_eq_zero, Finset.filter_eq_empty_iff]
    rintro S hS ⟨h, -⟩
    have := Finset.card_le_card h
    rw [(Finset.mem_powersetCard.1 hS).2] at this
    exact hA this

end

theorem choose_two (M j : Nat) (hj : j ≤ M) : M.choose j * ((M + 2) * (M + 1)) = (M + 2).choose (j + 1) * ((j + 1) * (M + 1 - j)) := by
  have h1 := Nat.add_one_mul_choose_eq (M + 1) j
  have h2 := Nat.choose_mul_succ_eq M j
  calc M.choose j * ((M + 2) * (M + 1)) = (M + 2) * (M.choose j * (M + 1)) := by ring
    _ = (M + 2) * ((M + 1).choose j * (M + 1 - j)) := by rw [h2]
    _ = ((M + 1 + 1) * (M + 1).choose j) * (M + 1 - j) := by ring
    _ = (M + 2).choose (j + 1) * ((j + 1) * (M + 1 - j)) := by rw [h1]; ring

/-- The number of sets of size `κ` that contain one point and avoid another. -/
theorem choose_pair {N κ : Nat} (hN : 2 ≤ N) (hκ : κ ≤ N) :
    ((if 1 ≤ κ then (N - 1 - 1).choose (κ - 1) else 0 : ℕ) : ℝ) = N.choose κ * (κ * (N - κ) / (N * (N - 1))) := by
  obtain ⟨M, rfl⟩ := Nat.exists_eq_add_of_le' hN
  have h0 : ((M + 2 : ℕ) : ℝ) ≠ 0 := by positivity
  have h1 : ((M + 2 : ℕ) : ℝ) - 1 = ((M + 1 : ℕ) : ℝ) := by push_cast; ring
  have h10 : ((M + 1 : ℕ) : ℝ) ≠ 0 := by positivity
  rw [h1]
  cases κ with
  | zero => simp
  | succ j =>
    rw [if_pos (by omega), show M + 2 - 1 - 1 = M from by omega, Nat.add_sub_cancel]
    by_cases hj : j ≤ M
    · have h := choose_two M j hj
      have hsub : ((M + 1 - j : ℕ) : ℝ) = (M + 2 : ℕ) - ((j + 1 : ℕ) : ℝ) := by
        rw [Nat.cast_sub (by omega)]; push_cast; ring
      have h' : (M.choose j : ℝ) * (((M + 2 : ℕ) : ℝ) * ((M + 1 : ℕ) : ℝ)) = ((M + 2).choose (j + 1) : ℝ) * (((j + 1 : ℕ) : ℝ) * ((M + 2 : ℕ) - ((j + 1 : ℕ) : ℝ))) := by
        rw [← hsub]
        exact_mod_cast h
      field_simp
      linarith
    · have : j = M + 1 := by omega
      subst this
      rw [Nat.choose_eq_zero_of_lt (by omega)]
      push_cast
      ring

/-- The number of sets of size `κ` that contain two points and avoid two others. -/
theorem choose_four {N κ : Nat} (hN : 4 ≤ N) (hκ : κ ≤ N) :
    ((if 2 ≤ κ then (N - 2 - 2).choose (κ - 2) else 0 : ℕ) : ℝ) =
      N.choose κ * (κ * (κ - 1) * (N - κ) * (N - κ - 1) / (N * (N - 1) * (N - 2) * (N - 3))) := by
  obtain ⟨M, rfl⟩ := Nat.exists_eq_add_of_le' hN
  have e3 : ((M + 4 : ℕ) : ℝ) - 3 = ((M + 1 : ℕ) : ℝ) := by push_cast; ring
  have e2 : ((M + 4 : ℕ) : ℝ) - 2 = ((M + 2 : ℕ) : ℝ) := by push_cast; ring
  have e1 : ((M + 4 : ℕ) : ℝ) - 1 = ((M + 3 : ℕ) : ℝ) := by push_cast; ring
  rw [e1, e2, e3]
  have n1 : ((M + 1 : ℕ) : ℝ) ≠ 0 := by positivity
  have n2 : ((M + 2 : ℕ) : ℝ) ≠ 0 := by positivity
  have n3 : ((M + 3 : ℕ) : ℝ) ≠ 0 := by positivity
  have n4 : ((M + 4 : ℕ) : ℝ) ≠ 0 := by positivity
  match κ, hκ with
  | 0, _ => simp
  | 1, _ => simp
  | j + 2, hκ =>
    rw [if_pos (by omega), show M + 4 - 2 - 2 = M from by omega, Nat.add_sub_cancel]
    by_cases hj : j ≤ M
    · have h := choose_two M j hj
      have h2 := choose_two (M + 2) (j + 1) (by omega)
      have s1 : ((M + 1 - j : ℕ) : ℝ) = (M + 4 : ℕ) - ((j + 2 : ℕ) : ℝ) - 1 := by
        rw [Nat.cast_sub (by omega)]; push_cast; ring
      have s2 : ((M + 2 + 1 - (j + 1) : ℕ) : ℝ) = (M + 4 : ℕ) - ((j + 2 : ℕ) : ℝ) := by
        rw [Nat.cast_sub (by omega)]; push_cast; ring
      have s3 : ((j + 2 : ℕ) : ℝ) - 1 = ((j + 1 : ℕ) : ℝ) := by push_cast; ring
      have h' : (M.choose j : ℝ) * (((M + 2 : ℕ) : ℝ) * ((M + 1 : ℕ) : ℝ)) = ((M + 2).choose (j + 1) : ℝ) * (((j + 1 : ℕ) : ℝ) * ((M + 4 : ℕ) - ((j + 2 : ℕ) : ℝ) - 1)) := by
        rw [← s1]
        exact_mod_cast h
      have h2' : ((M + 2).choose (j + 1) : ℝ) * (((M + 4 : ℕ) : ℝ) * ((M + 3 : ℕ) : ℝ)) = ((M + 4).choose (j + 2) : ℝ) * (((j + 2 : ℕ) : ℝ) * ((M + 4 : ℕ) - ((j + 2 : ℕ) : ℝ))) := by
        rw [← s2]
        exact_mod_cast h2
      rw [s3, mul_div_assoc', eq_div_iff (by positivity)]
      calc (M.choose j : ℝ) * (((M + 4 : ℕ) : ℝ) * ((M + 3 : ℕ) : ℝ) * ((M + 2 : ℕ) : ℝ) * ((M + 1 : ℕ) : ℝ)) =
          ((M.choose j : ℝ) * (((M + 2 : ℕ) : ℝ) * ((M + 1 : ℕ) : ℝ))) * (((M + 4 : ℕ) : ℝ) * ((M + 3 : ℕ) : ℝ)) := by ring
        _ = (((M + 2).choose (j + 1) : ℝ) * (((M + 4 : ℕ) : ℝ) * ((M + 3 : ℕ) : ℝ))) * (((j + 1 : ℕ) : ℝ) * ((M + 4 : ℕ) - ((j + 2 : ℕ) : ℝ) - 1)) := by rw [h']; ring
        _ = _ := by rw [h2']; ring
    · rw [Nat.choose_eq_zero_of_lt (by omega)]
      have : j = M + 1 ∨ j = M + 2 := by omega
      rcases this with rfl | rfl
      · push_cast; ring
      · push_cast; ring

/-! ### The circle -/

section
variable {N : Nat}

/-- The number of ones that are followed by a zero, on a circle of `N` places. -/
def circleRuns (next : Fin N → Fin N) (S : Finset (Fin N)) : Nat := (Finset.univ.filter fun i => i ∈ S ∧ next i ∉ S).card

theorem circleRuns_eq (next : Fin N → Fin N) (S : Finset (Fin N)) :
    (circleRuns next S : ℝ) = ∑ i, if i ∈ S ∧ next i ∉ S then (1 : ℝ) else 0 := by
  rw [circleRuns, Finset.sum_boole]

/-- The sum of the runs over all sets of size `κ`. -/
theorem sum_circleRuns (next : Fin N → Fin N) (h1 : ∀ i, next i ≠ i) (hN : 2 ≤ N) {κ : Nat} (hκ : κ ≤ N) :
    ∑ S ∈ Finset.univ.powersetCard κ, (circleRuns next S : ℝ) = N.choose κ * (κ * (N - κ) / (N - 1)) := by
  have hN0 : (N : ℝ) ≠ 0 := by have : 0 < N := by omega
                               exact_mod_cast this.ne'
  simp only [circleRuns_eq]
  rw [Finset.sum_comm]
  have : ∀ i : Fin N, (∑ S ∈ Finset.univ.powersetCard κ, if i ∈ S ∧ next i ∉ S then (1 : ℝ) else 0) = N.choose κ * (κ * (N - κ) / (N * (N - 1))) := by
    intro i
    rw [Finset.sum_boole, ← choose_pair hN hκ]
    have h := card_between {i} {next i} (by simpa using (h1 i).symm) κ
    simp only [Finset.singleton_subset_iff, Finset.disjoint_singleton_left, Finset.card_singleton, Fintype.card_fin] at h
    rw [h]
  rw [Finset.sum_congr rfl fun i _ => this i, Finset.sum_const, Finset.card_univ, Fintype.card_fin, nsmul_eq_mul]
  field_simp

/-- The sum of the squares of the runs over all sets of size `κ`. -/
theorem sum_circleRuns_sq (next : Fin N → Fin N) (hb : Function.Injective next) (h1 : ∀ i, next i ≠ i) (h2 : ∀ i, next (next i) ≠ i) (hN : 4 ≤ N)
    {κ : Nat} (hκ : κ ≤ N) :
    ∑ S ∈ Finset.univ.powersetCard κ, (circleRuns next S : ℝ) ^ 2 =
      N.choose κ * (κ * (N - κ) / (N - 1) + κ * (κ - 1) * (N - κ) * (N - κ - 1) / ((N - 1) * (N - 2))) := by
  have hbij : Function.Bijective next := Finite.injective_iff_bijective.1 hb
  have hN0 : (N : ℝ) ≠ 0 := by have : 0 < N := by omega
                               exact_mod_cast this.ne'
  have hN4 : (4 : ℝ) ≤ N := by exact_mod_cast hN
  have hN1 : (N : ℝ) - 1 ≠ 0 := by linarith
  have hN2 : (N : ℝ) - 2 ≠ 0 := by linarith
  have hN3 : (N : ℝ) - 3 ≠ 0 := by linarith
  set P := (N.choose κ : ℝ) * (κ * (N - κ) / (N * (N - 1))) with hP
  set Q := (N.choose κ : ℝ) * (κ * (κ - 1) * (N - κ) * (N - κ - 1) / (N * (N - 1) * (N - 2) * (N - 3))) with hQ
  have hpair : ∀ i j : Fin N, (∑ S ∈ Finset.univ.powersetCard κ, (if i ∈ S ∧ next i ∉ S then (1 : ℝ) else 0) * if j ∈ S ∧ next j ∉ S then (1 : ℝ) else 0) =
      Q + ((if j = i then P - Q else 0) + (if j = next i then -Q else 0) + if next j = i then -Q else 0) := by
    intro i j
    have hm : ∀ S : Finset (Fin N), ((if i ∈ S ∧ next i ∉ S then (1 : ℝ) else 0) * if j ∈ S ∧ next j ∉ S then (1 : ℝ) else 0) =
        if (i ∈ S ∧ next i ∉ S) ∧ (j ∈ S ∧ next j ∉ S) then (1 : ℝ) else 0 := by
      intro S
      by_cases ha : i ∈ S ∧ next i ∉ S <;> by_cases hb : j ∈ S ∧ next j ∉ S <;> simp [ha, hb]
    simp only [hm]
    rw [Finset.sum_boole]
    by_cases hji : j = i
    · subst hji
      rw [if_pos rfl, if_neg (fun h => h1 j h.symm), if_neg (h1 j)]
      have h := card_between {j} {next j} (by simpa using (h1 j).symm) κ
      simp only [Finset.singleton_subset_iff, Finset.disjoint_singleton_left, Finset.card_singleton, Fintype.card_fin] at h
      simp only [and_self]
      rw [h, choose_pair (by omega) hκ]
      ring
    · by_cases hjn : j = next i
      · subst hjn
        rw [if_neg hji, if_pos rfl, if_neg (h2 i)]
        have : (Finset.univ.powersetCard κ).filter (fun S => (i ∈ S ∧ next i ∉ S) ∧ (next i ∈ S ∧ next (next i) ∉ S)) = ∅ := by
          rw [Finset.filter_eq_empty_iff]
          rintro S - ⟨⟨-, h⟩, h', -⟩
          exact h h'
        rw [this]
        simp
      · by_cases hnj : next j = i
        · subst hnj
          rw [if_neg hji, if_neg hjn, if_pos rfl]
          have : (Finset.univ.powersetCard κ).filter (fun S => (next j ∈ S ∧ next (next j) ∉ S) ∧ (j ∈ S ∧ next j ∉ S)) = ∅ := by
            rw [Finset.filter_eq_empty_iff]
            rintro S - ⟨⟨h, -⟩, -, h'⟩
            exact h' h
          rw [this]
          simp
        · rw [if_neg hji, if_neg hjn, if_neg hnj]
          have hnn : next i ≠ next j := fun h => hji (hb h).symm
          have hd : Disjoint ({i, j} : Finset (Fin N)) {next i, next j} := by
            rw [Finset.disjoint_left]
            intro a ha ha'
            simp only [Finset.mem_insert, Finset.mem_singleton] at ha ha'
            rcases ha with rfl | rfl
            · rcases ha' with h | h
              · exact h1 _ h.symm
              · exact hnj h.symm
            · rcases ha' with h | h
              · exact hjn h
              · exact h1 _ h.symm
          have h := card_between {i, j} {next i, next j} hd κ
          rw [Finset.card_pair (fun h => hji h.symm), Finset.card_pair hnn, Fintype.card_fin] at h
          have e : (Finset.univ.powersetCard κ).filter (fun S => (i ∈ S ∧ next i ∉ S) ∧ (j ∈ S ∧ next j ∉ S)) =
              (Finset.univ.powersetCard κ).filter (fun S => {i, j} ⊆ S ∧ Disjoint {next i, next j} S) := by
            refine Finset.filter_congr fun S _ => ?_
            rw [Finset.insert_subset_iff, Finset.singleton_subset_iff, Finset.disjoint_insert_left, Finset.disjoint_singleton_left]
            tauto
          rw [e, h, choose_four hN hκ]
          ring
  have hsq : ∀ S : Finset (Fin N), (circleRuns next S : ℝ) ^ 2 =
      ∑ i, ∑ j, (if i ∈ S ∧ next i ∉ S then (1 : ℝ) else 0) * if j ∈ S ∧ next j ∉ S then (1 : ℝ) else 0 := by
    intro S
    rw [circleRuns_eq, sq, Finset.sum_mul_sum]
  simp only [hsq]
  rw [Finset.sum_comm]
  have hrow : ∀ i : Fin N, (∑ S ∈ Finset.univ.powersetCard κ, ∑ j, (if i ∈ S ∧ next i ∉ S then (1 : ℝ) else 0) * if j ∈ S ∧ next j ∉ S then (1 : ℝ) else 0) =
      P + (N - 3) * Q := by
    intro i
    rw [Finset.sum_comm, Finset.sum_congr rfl fun j _ => hpair i j, Finset.sum_add_distrib, Finset.sum_add_distrib, Finset.sum_add_distrib,
      Finset.sum_ite_eq', if_pos (Finset.mem_univ _), Finset.sum_ite_eq', if_pos (Finset.mem_univ _), Finset.sum_const, Finset.card_univ,
      Fintype.card_fin, nsmul_eq_mul]
    obtain ⟨p, hp⟩ := hbij.2 i
    have : ∀ j, next j = i ↔ j = p := fun j => ⟨fun h => hb (h.trans hp.symm), fun h => h ▸ hp⟩
    simp only [this]
    rw [Finset.sum_ite_eq', if_pos (Finset.mem_univ _)]
    ring
  rw [Finset.sum_congr rfl fun i _ => hrow i, Finset.sum_const, Finset.card_univ, Fintype.card_fin, nsmul_eq_mul, hP, hQ]
  field_simp

/-- On a circle the changes are twice the ones followed by a zero. -/
theorem changes_eq (next : Fin N → Fin N) (hb : Function.Injective next) (S : Finset (Fin N)) :
    (Finset.univ.filter fun i => decide (i ∈ S) ≠ decide (next i ∈ S)).card = 2 * circleRuns next S := by
  have hbij : Function.Bijective next := Finite.injective_iff_bijective.1 hb
  have h1 : ∀ i, ((if decide (i ∈ S) ≠ decide (next i ∈ S) then 1 else 0 : ℕ) : ℤ) =
      2 * ((if i ∈ S ∧ next i ∉ S then 1 else 0 : ℕ) : ℤ) - (((if i ∈ S then 1 else 0 : ℕ) : ℤ) - ((if next i ∈ S then 1 else 0 : ℕ) : ℤ)) := by
    intro i
    by_cases ha : i ∈ S <;> by_cases hb : next i ∈ S <;> simp [ha, hb]
  have h2 : ∑ i, ((if next i ∈ S then 1 else 0 : ℕ) : ℤ) = ∑ i, ((if i ∈ S then 1 else 0 : ℕ) : ℤ) :=
    Function.Bijective.sum_comp hbij fun i => ((if i ∈ S then 1 else 0 : ℕ) : ℤ)
  have h3 : (((Finset.univ.filter fun i => decide (i ∈ S) ≠ decide (next i ∈ S)).card : ℕ) : ℤ) = ((2 * circleRuns next S : ℕ) : ℤ) := by
    rw [circleRuns, Finset.card_filter, Finset.card_filter]
    push_cast
    have := Finset.sum_congr rfl fun i (_ : i ∈ Finset.univ) => h1 i
    rw [Finset.sum_sub_distrib, Finset.sum_sub_distrib, h2, sub_self, sub_zero, ← Finset.mul_sum] at this
    push_cast at this
    exact this
  exact_mod_cast h3

end

end Dh
