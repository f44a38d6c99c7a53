import Mathlib.Data.Fin.Tuple.Sort
import Mathlib.Logic.Equiv.Fintype
import Mathlib.Data.Fintype.Perm
import Mathlib.GroupTheory.Perm.ViaEmbedding
import Mathlib.Data.Int.Order.Basic
import Verif.Proof.Uniform
/-
Random order: all arrangements of different values are equally likely.
-/
namespace Dh
open Spec

section
variable {N m : Nat}

/-- Rearranging the places of a window first does not change a mean over all arrangements. -/
theorem mean_window (f : Fin m ↪ Fin N) (g : Equiv.Perm (Fin N) → ℝ) :
    mean g = mean fun σ => mean fun τ : Equiv.Perm (Fin m) => g (σ * τ.viaEmbedding f) := by
  have h : ∀ τ : Equiv.Perm (Fin m), mean (fun σ => g (σ * τ.viaEmbedding f)) = mean g := fun τ =>
    mean_equiv (Equiv.mulRight (τ.viaEmbedding f)) g
  have hc : (Fintype.card (Equiv.Perm (Fin m)) : ℝ) ≠ 0 := by exact_mod_cast Fintype.card_ne_zero
  have : mean (fun σ => mean fun τ : Equiv.Perm (Fin m) => g (σ * τ.viaEmbedding f)) =
      mean fun τ : Equiv.Perm (Fin m) => mean fun σ => g (σ * τ.viaEmbedding f) := by
    simp only [mean, ← Finset.sum_div]
    rw [Finset.sum_comm, div_right_comm]
  rw [this, mean_congr h, mean_const]

/-- Different values are a permutation up to order. -/
theorem exists_rank {α : Type*} [LinearOrder α] (a : Fin m → α) (ha : Function.Injective a) :
    ∃ π : Equiv.Perm (Fin m), ∀ i j, a i ≤ a j ↔ π i ≤ π j := by
  have hs : StrictMono (a ∘ Tuple.sort a) :=
    (Tuple.monotone_sort a).strictMono_of_injective (ha.comp (Tuple.sort a).injective)
  refine ⟨(Tuple.sort a)⁻¹, fun i j => ?_⟩
  have := hs.le_iff_le (a := (Tuple.sort a)⁻¹ i) (b := (Tuple.sort a)⁻¹ j)
  simpa using this

/-- The list of a permutation. -/
def permList (τ : Equiv.Perm (Fin m)) : List Nat := List.ofFn fun i => (τ i).val

/-- A function of the order of `m` different values has the same mean over their arrangements as over the permutations of `0, ..., m-1`. -/
theorem mean_arrange {α : Type*} [LinearOrder α] (F : (Fin m → α) → ℝ) (G : List Nat → ℝ)
    (h : ∀ (a : Fin m → α) (π : Equiv.Perm (Fin m)), (∀ i j, a i ≤ a j ↔ π i ≤ π j) → F a = G (permList π))
    (a : Fin m → α) (ha : Function.Injective a) :
    mean (fun τ : Equiv.Perm (Fin m) => F (fun i => a (τ i))) = mean fun τ : Equiv.Perm (Fin m) => G (permList τ) := by
  obtain ⟨π, hπ⟩ := exists_rank a ha
  rw [← mean_equiv (Equiv.mulLeft π) (fun τ => G (permList τ))]
  exact mean_congr fun τ => h _ _ fun i j => hπ _ _

/-- The mean of a function of the order of the values in a window. -/
theorem mean_order {α : Type*} [LinearOrder α] (F : (Fin m → α) → ℝ) (G : List Nat → ℝ)
    (h : ∀ (a : Fin m → α) (π : Equiv.Perm (Fin m)), (∀ i j, a i ≤ a j ↔ π i ≤ π j) → F a = G (permList π))
    (x : Fin N → α) (hx : Function.Injective x) (f : Fin m ↪ Fin N) :
    mean (fun σ : Equiv.Perm (Fin N) => F (fun i => x (σ (f i)))) = mean fun τ : Equiv.Perm (Fin m) => G (permList τ) := by
  rw [mean_window f]
  have : ∀ σ : Equiv.Perm (Fin N), mean (fun τ : Equiv.Perm (Fin m) => F (fun i => x ((σ * τ.viaEmbedding f) (f i)))) =
      mean fun τ : Equiv.Perm (Fin m) => G (permList τ) := by
    intro σ
    rw [← mean_arrange F G h (fun i => x (σ (f i))) (hx.comp (σ.injective.comp f.injective))]
    refine mean_congr fun τ => ?_
    congr 1
    funext i
    rw [Equiv.Perm.mul_apply, Equiv.Perm.viaEmbedding_apply]
  rw [mean_congr this, mean_const]

/-- Two windows without common places: their orders are independent. -/
theorem mean_order_two {α : Type*} [LinearOrder α] {m' : Nat} (F : (Fin m → α) → (Fin m' → α) → ℝ) (G : List Nat → List Nat → ℝ)
    (h : ∀ (a : Fin m → α) (b : Fin m' → α) (π : Equiv.Perm (Fin m)) (ρ : Equiv.Perm (Fin m')), (∀ i j, a i ≤ a j ↔ π i ≤ π j) →
      (∀ i j, b i ≤ b j ↔ ρ i ≤ ρ j) → F a b = G (permList π) (permList ρ))
    (x : Fin N → α) (hx : Function.Injective x) (f : Fin m ↪ Fin N) (f' : Fin m' ↪ Fin N) (hd : ∀ i j, f i ≠ f' j) :
    mean (fun σ : Equiv.Perm (Fin N) => F (fun i => x (σ (f i))) (fun i => x (σ (f' i)))) =
      mean fun τ : Equiv.Perm (Fin m) => mean fun τ' : Equiv.Perm (Fin m') => G (permList τ) (permList τ') := by
  rw [mean_window f]
  have h1 : ∀ (σ : Equiv.Perm (Fin N)) (τ : Equiv.Perm (Fin m)),
      F (fun i => x ((σ * τ.viaEmbedding f) (f i))) (fun i => x ((σ * τ.viaEmbedding f) (f' i))) =
        F (fun i => x (σ (f (τ i)))) (fun i => x (σ (f' i))) := by
    intro σ τ
    congr 1 <;> funext i
    · rw [Equiv.Perm.mul_apply, Equiv.Perm.viaEmbedding_apply]
    · rw [Equiv.Perm.mul_apply, Equiv.Perm.viaEmbedding_apply_of_notMem]
      rintro ⟨j, hj⟩
      exact hd j i hj
  simp only [h1]
  have swap : ∀ (g : Equiv.Perm (Fin N) → Equiv.Perm (Fin m) → ℝ), (mean fun σ => mean fun τ => g σ τ) = mean fun τ => mean fun σ => g σ τ := by
    intro g
    simp only [mean, ← Finset.sum_div]
    rw [Finset.sum_comm, div_right_comm]
  -- for every arrangement, average over the first window, then over the second
  have h2 : ∀ σ : Equiv.Perm (Fin N), mean (fun τ : Equiv.Perm (Fin m) => F (fun i => x (σ (f (τ i)))) (fun i => x (σ (f' i)))) =
      mean fun τ : Equiv.Perm (Fin m) => F (fun i => x (σ (f (Classical.choose (exists_rank (fun i => x (σ (f i))) (hx.comp (σ.injective.comp f.injective))) |>.symm (τ i)))))
        (fun i => x (σ (f' i))) := by
    intro σ
    exact (mean_equiv (Equiv.mulLeft (Classical.choose (exists_rank (fun i => x (σ (f i))) (hx.comp (σ.injective.comp f.injective)))).symm) _).symm
  have h3 : ∀ (σ : Equiv.Perm (Fin N)) (τ : Equiv.Perm (Fin m)) (i j : Fin m),
      x (σ (f (Classical.choose (exists_rank (fun i => x (σ (f i))) (hx.comp (σ.injective.comp f.injective))) |>.symm (τ i)))) ≤
        x (σ (f (Classical.choose (exists_rank (fun i => x (σ (f i))) (hx.comp (σ.injective.comp f.injective))) |>.symm (τ j)))) ↔ τ i ≤ τ j := by
    intro σ τ i j
    have := Classical.choose_spec (exists_rank (fun i => x (σ (f i))) (hx.comp (σ.injective.comp f.injective)))
    rw [this]
    simp
  simp only [h2]
  rw [swap]
  refine mean_congr fun τ => ?_
  obtain ⟨σ₀⟩ : Nonempty (Equiv.Perm (Fin N)) := inferInstance
  have h4 : ∀ σ : Equiv.Perm (Fin N), F (fun i => x (σ (f (Classical.choose (exists_rank (fun i => x (σ (f i))) (hx.comp (σ.injective.comp f.injective))) |>.symm (τ i)))))
        (fun i => x (σ (f' i))) =
      G (permList τ) (permList (Classical.choose (exists_rank (fun i => x (σ (f' i))) (hx.comp (σ.injective.comp f'.injective))))) := fun σ =>
    h _ _ _ _ (h3 σ τ) (Classical.choose_spec (exists_rank (fun i => x (σ (f' i))) (hx.comp (σ.injective.comp f'.injective))))
  simp only [h4]
  have h5 := mean_order (m := m') (fun b : Fin m' → α => if hb : Function.Injective b then G (permList τ) (permList (Classical.choose (exists_rank b hb))) else 0)
    (G (permList τ)) ?_ x hx f'
  · rw [← h5]
    refine mean_congr fun σ => ?_
    have hi : Function.Injective fun i => x (σ (f' i)) := hx.comp (σ.injective.comp f'.injective)
    rw [dif_pos hi]
  · intro b ρ hb
    have hi : Function.Injective b := fun i j e => ρ.injective (le_antisymm ((hb i j).1 e.le) ((hb j i).1 e.ge))
    rw [dif_pos hi]
    have hc := Classical.choose_spec (exists_rank b hi)
    have : Classical.choose (exists_rank b hi) = ρ := by
      generalize Classical.choose (exists_rank b hi) = π at hc
      have ho : ∀ i j, π i ≤ π j ↔ ρ i ≤ ρ j := fun i j => by rw [← hc, hb]
      have hm : StrictMono (π * ρ⁻¹) := by
        intro i j hij
        rw [Equiv.Perm.mul_apply, Equiv.Perm.mul_apply, ← not_le, ho]
        simpa using hij
      have h1 : ∀ i, (π * ρ⁻¹) i = i := by
        have := Subsingleton.elim (hm.orderIsoOfSurjective _ (π * ρ⁻¹).surjective) (OrderIso.refl (Fin m'))
        intro i
        exact congrFun (congrArg (fun e : Fin m' ≃o Fin m' => (e : Fin m' → Fin m')) this) i
      have h2 : π * ρ⁻¹ = 1 := Equiv.ext h1
      exact mul_inv_eq_one.1 h2
    rw [this]

end

/-! ### Permutations by insertion -/

/-- Put a value of rank `r` behind the values `L`. -/
def putLast (r : Nat) (L : List Nat) : List Nat := L.map (fun v => if v < r then v else v + 1) ++ [r]

/-- All the arrangements of `0, ..., m-1`. -/
def arrangements : Nat → List (List Nat)
  | 0 => [[]]
  | m + 1 => (arrangements m).flatMap fun L => (List.range (m + 1)).map fun r => putLast r L

/-- Insert a last value of rank `r`. -/
noncomputable def insertLast {m : Nat} (r : Fin (m + 1)) (τ : Equiv.Perm (Fin m)) : Equiv.Perm (Fin (m + 1)) :=
  Equiv.ofBijective (Fin.snoc (α := fun _ => Fin (m + 1)) (fun i => r.succAbove (τ i)) r) (by
    rw [← Finite.injective_iff_bijective]
    intro i j
    induction i using Fin.lastCases with
    | last =>
      induction j using Fin.lastCases with
      | last => simp
      | cast j => simp only [Fin.snoc_last, Fin.snoc_castSucc]; intro h; exact absurd h.symm (Fin.succAbove_ne _ _)
    | cast i =>
      induction j using Fin.lastCases with
      | last => simp only [Fin.snoc_last, Fin.snoc_castSucc]; intro h; exact absurd h (Fin.succAbove_ne _ _)
      | cast j => simp only [Fin.snoc_castSucc]; intro h; simpa using h)

theorem insertLast_last {m : Nat} (r : Fin (m + 1)) (τ : Equiv.Perm (Fin m)) : insertLast r τ (Fin.last m) = r := by
  simp [insertLast]

theorem insertLast_cast {m : Nat} (r : Fin (m + 1)) (τ : Equiv.Perm (Fin m)) (i : Fin m) : insertLast r τ i.castSucc = r.succAbove (τ i) := by
  simp [insertLast]

theorem insertLast_bijective (m : Nat) : Function.Bijective fun p : Fin (m + 1) × Equiv.Perm (Fin m) => insertLast p.1 p.2 := by
  rw [Fintype.bijective_iff_injective_and_card]
  constructor
  · rintro ⟨r, τ⟩ ⟨r', τ'⟩ h
    simp only at h
    have h1 : r = r' := by rw [← insertLast_last r τ, h, insertLast_last]
    subst h1
    congr 1
    ext i : 1
    have := congrArg (fun e : Equiv.Perm (Fin (m + 1)) => e i.castSucc) h
    simp only [insertLast_cast] at this
    exact Fin.succAbove_right_injective this
  · rw [Fintype.card_prod, Fintype.card_perm, Fintype.card_perm, Fintype.card_fin, Fintype.card_fin, Nat.factorial_succ]

theorem permList_insertLast {m : Nat} (r : Fin (m + 1)) (τ : Equiv.Perm (Fin m)) : permList (insertLast r τ) = putLast r (permList τ) := by
  rw [permList, List.ofFn_succ', insertLast_last, putLast, permList, List.map_ofFn, List.concat_eq_append]
  congr 2
  funext i
  rw [insertLast_cast, Fin.succAbove]
  simp only [Function.comp, Fin.lt_def, Fin.val_castSucc]
  split <;> simp

/-- A sum over all permutations as a sum over a list. -/
theorem sum_perm (G : List Nat → ℝ) : ∀ m : Nat, ∑ τ : Equiv.Perm (Fin m), G (permList τ) = ((arrangements m).map G).sum
  | 0 => by simp [arrangements, permList]
  | m + 1 => by
    have e : ∑ p : Fin (m + 1) × Equiv.Perm (Fin m), G (permList (insertLast p.1 p.2)) = ∑ τ : Equiv.Perm (Fin (m + 1)), G (permList τ) :=
      (insertLast_bijective m).sum_comp fun τ => G (permList τ)
    rw [← e, Fintype.sum_prod_type_right]
    simp only [permList_insertLast]
    have h := sum_perm (fun L => ∑ r : Fin (m + 1), G (putLast r L)) m
    rw [h, arrangements, List.map_flatMap, List.flatMap, List.sum_flatten, List.map_map]
    congr 1
    refine List.map_congr_left fun L _ => ?_
    rw [Function.comp_apply, List.map_map, Fin.sum_univ_eq_sum_range (fun r => G (putLast r L)) (m + 1)]
    rfl

theorem mean_perm (G : List Nat → ℝ) (m : Nat) :
    (mean fun τ : Equiv.Perm (Fin m) => G (permList τ)) = ((arrangements m).map G).sum / m.factorial := by
  rw [mean, sum_perm, Fintype.card_perm, Fintype.card_fin]

end Dh
