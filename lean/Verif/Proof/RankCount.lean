import Mathlib.LinearAlgebra.Matrix.Rank
import Mathlib.Data.ZMod.Basic
import Mathlib.Algebra.Field.ZMod
import Mathlib.FieldTheory.Finiteness
import Mathlib.LinearAlgebra.FreeModule.Finite.Matrix
import Mathlib.LinearAlgebra.Dimension.DivisionRing
import Mathlib.LinearAlgebra.FiniteDimensional.Lemmas
import Mathlib.LinearAlgebra.Matrix.ToLin
import Mathlib.Data.Fin.Tuple.Basic
/-
How many bit matrices have a given rank.
-/
namespace Dh

/-- The number of `m × n` matrices of rank `k`, as a recursion on the number of rows: a new row either lies in the span of the old
rows or raises the rank. -/
def rankNum (n : Nat) : (m k : Nat) → Nat
  | 0, 0 => 1
  | 0, _ + 1 => 0
  | m + 1, 0 => rankNum n m 0
  | m + 1, k + 1 => 2 ^ (k + 1) * rankNum n m (k + 1) + (2 ^ n - 2 ^ k) * rankNum n m k

section
variable {n : Nat}

abbrev BVec (n : Nat) := Fin n → ZMod 2

noncomputable def sp {m : Nat} (f : Fin m → BVec n) : Submodule (ZMod 2) (BVec n) := Submodule.span (ZMod 2) (Set.range f)

theorem sp_cons {m : Nat} (v : BVec n) (f : Fin m → BVec n) :
    sp (Fin.cons v f : Fin (m + 1) → BVec n) = Submodule.span (ZMod 2) {v} ⊔ sp f := by
  rw [sp, Fin.range_cons, Submodule.span_insert]; rfl

theorem finrank_cons_mem {m : Nat} (v : BVec n) (f : Fin m → BVec n) (h : v ∈ sp f) :
    Module.finrank (ZMod 2) (sp (Fin.cons v f : Fin (m + 1) → BVec n)) = Module.finrank (ZMod 2) (sp f) := by
  rw [sp_cons, sup_eq_right.2]
  rw [Submodule.span_singleton_le_iff_mem]; exact h

theorem finrank_cons_not_mem {m : Nat} (v : BVec n) (f : Fin m → BVec n) (h : v ∉ sp f) :
    Module.finrank (ZMod 2) (sp (Fin.cons v f : Fin (m + 1) → BVec n)) = Module.finrank (ZMod 2) (sp f) + 1 := by
  have hv : v ≠ 0 := fun e => h (e ▸ Submodule.zero_mem _)
  have hd : Submodule.span (ZMod 2) {v} ⊓ sp f = ⊥ := by
    rw [eq_bot_iff]
    rintro x ⟨hx1, hx2⟩
    obtain ⟨a, rfl⟩ := Submodule.mem_span_singleton.1 hx1
    by_cases ha : a = 0
    · simp [ha]
    · exact absurd ((Submodule.smul_mem_iff _ ha).1 hx2) h
  have := Submodule.finrank_sup_add_finrank_inf_eq (Submodule.span (ZMod 2) {v}) (sp f)
  rw [hd, finrank_bot, finrank_span_singleton hv] at this
  rw [sp_cons]
  omega

open Classical in
theorem card_mem (S : Submodule (ZMod 2) (BVec n)) :
    Fintype.card {v : BVec n // v ∈ S} = 2 ^ Module.finrank (ZMod 2) S := by
  have := Module.card_eq_pow_finrank (K := ZMod 2) (V := S)
  rw [ZMod.card] at this
  rw [← this]

open Classical in
theorem card_not_mem (S : Submodule (ZMod 2) (BVec n)) :
    Fintype.card {v : BVec n // v ∉ S} = 2 ^ n - 2 ^ Module.finrank (ZMod 2) S := by
  rw [Fintype.card_subtype_compl, card_mem]
  simp [ZMod.card]

open Classical in
theorem card_rank : ∀ (m k : Nat),
    Fintype.card {f : Fin m → BVec n // Module.finrank (ZMod 2) (sp f) = k} = rankNum n m k := by
  intro m
  induction m with
  | zero =>
    intro k
    have h0 : ∀ f : Fin 0 → BVec n, Module.finrank (ZMod 2) (sp f) = 0 := by
      intro f
      have : Set.range f = ∅ := Set.range_eq_empty f
      rw [sp, this, Submodule.span_empty, finrank_bot]
    cases k with
    | zero =>
      rw [Fintype.card_subtype]
      simp [h0, rankNum]
    | succ k =>
      rw [Fintype.card_subtype]
      simp [h0, rankNum]
  | succ m ih =>
    intro k
    -- a matrix is its first row and the rest
    let e : {g : Fin (m + 1) → BVec n // Module.finrank (ZMod 2) (sp g) = k} ≃
        {p : BVec n × (Fin m → BVec n) // Module.finrank (ZMod 2) (sp (Fin.cons p.1 p.2 : Fin (m + 1) → BVec n)) = k} :=
      ((Fin.consEquiv (fun _ => BVec n)).subtypeEquiv (fun p => Iff.rfl)).symm
    rw [Fintype.card_congr e]
    have hcount : ∀ f : Fin m → BVec n,
        (Finset.univ.filter fun v : BVec n => Module.finrank (ZMod 2) (sp (Fin.cons v f : Fin (m + 1) → BVec n)) = k).card =
          (if Module.finrank (ZMod 2) (sp f) = k then 2 ^ k else 0) +
          (if Module.finrank (ZMod 2) (sp f) + 1 = k then 2 ^ n - 2 ^ (k - 1) else 0) := by
      intro f
      have hsplit := Finset.card_filter_add_card_filter_not (s := Finset.univ.filter fun v : BVec n =>
        Module.finrank (ZMod 2) (sp (Fin.cons v f : Fin (m + 1) → BVec n)) = k) (fun v => v ∈ sp f)
      rw [← hsplit, Finset.filter_filter, Finset.filter_filter]
      congr 1
      · by_cases hk : Module.finrank (ZMod 2) (sp f) = k
        · rw [if_pos hk, ← hk, ← card_mem, Fintype.card_subtype]
          congr 1
          ext v
          simp only [Finset.mem_filter, Finset.mem_univ, true_and]
          exact ⟨fun h => h.2, fun h => ⟨finrank_cons_mem v f h, h⟩⟩
        · rw [if_neg hk, Finset.card_eq_zero, Finset.filter_eq_empty_iff]
          rintro v - ⟨h1, h2⟩
          rw [finrank_cons_mem v f h2] at h1
          exact hk h1
      · by_cases hk : Module.finrank (ZMod 2) (sp f) + 1 = k
        · rw [if_pos hk, ← hk, Nat.add_sub_cancel, ← card_not_mem, Fintype.card_subtype]
          congr 1
          ext v
          simp only [Finset.mem_filter, Finset.mem_univ, true_and]
          exact ⟨fun h => h.2, fun h => ⟨finrank_cons_not_mem v f h, h⟩⟩
        · rw [if_neg hk, Finset.card_eq_zero, Finset.filter_eq_empty_iff]
          rintro v - ⟨h1, h2⟩
          rw [finrank_cons_not_mem v f h2] at h1
          exact hk h1
    rw [Fintype.card_subtype, ← Finset.univ_product_univ, Finset.card_filter, Finset.sum_product_right]
    simp_rw [← Finset.card_filter, hcount]
    rw [Finset.sum_add_distrib, ← Finset.sum_filter, ← Finset.sum_filter, Finset.sum_const, Finset.sum_const,
      ← Fintype.card_subtype, ← Fintype.card_subtype, ih]
    cases k with
    | zero =>
      simp [rankNum]
    | succ k =>
      simp only [Nat.add_right_cancel_iff, Nat.add_sub_cancel]
      rw [ih, rankNum, smul_eq_mul, smul_eq_mul]
      ring
end

open Classical in
/-- The number of bit matrices of a given rank. -/
theorem card_matrix_rank (m n k : Nat) :
    Fintype.card {M : Matrix (Fin m) (Fin n) (ZMod 2) // M.rank = k} = rankNum n m k := by
  rw [← card_rank]
  refine Fintype.card_congr (Equiv.subtypeEquiv (Equiv.refl _) ?_)
  intro M
  rw [Matrix.rank_eq_finrank_span_row]
  rfl

end Dh
