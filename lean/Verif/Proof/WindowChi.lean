import Mathlib.Algebra.BigOperators.Fin
import Mathlib.Data.Fin.Tuple.Basic
import Mathlib.Tactic.Positivity
import Mathlib.Algebra.Order.BigOperators.Ring.Finset
import Verif.Proof.Uniform
/-
The exact mean of Pearson's statistic of the words seen through possibly overlapping windows.
-/
namespace Dh
open Spec

theorem mean_prod {Ω Ω' : Type*} [Fintype Ω] [Fintype Ω'] (f : Ω → Ω' → ℝ) :
    mean (fun ω : Ω × Ω' => f ω.1 ω.2) = mean (fun y => mean (fun x => f x y)) := by
  simp only [mean]
  rw [Fintype.sum_prod_type_right, ← Finset.sum_div, Fintype.card_prod, Nat.cast_mul, div_div]

section
variable {A B : Type*} [Fintype A] [DecidableEq A] [Fintype B] [Nonempty B] [DecidableEq B] (L : B → A)

/-- The probability of the letter `a`. -/
noncomputable def letterProb (a : A) : ℝ := mean fun b => if L b = a then (1 : ℝ) else 0

/-- The probability of the word `w`. -/
noncomputable def wordProb {m : Nat} (w : Fin m → A) : ℝ := ∏ i, letterProb L (w i)

variable {L}

theorem letterProb_pos (hL : Function.Surjective L) (a : A) : 0 < letterProb L a := by
  obtain ⟨b, rfl⟩ := hL a
  have hc : (0 : ℝ) < Fintype.card B := by exact_mod_cast Fintype.card_pos
  rw [letterProb, mean_indicator]
  refine div_pos ?_ hc
  exact_mod_cast Finset.card_pos.2 ⟨b, by simp⟩

theorem letterProb_sum : ∑ a, letterProb L a = 1 := by
  simp only [letterProb]
  rw [← mean_sum]
  simp only [Finset.sum_ite_eq, Finset.mem_univ, if_true]
  exact mean_const 1

theorem wordProb_pos (hL : Function.Surjective L) {m : Nat} (w : Fin m → A) : 0 < wordProb L w :=
  Finset.prod_pos fun i _ => letterProb_pos hL (w i)

theorem wordProb_sum (m : Nat) : ∑ w : Fin m → A, wordProb L w = 1 := by
  simp only [wordProb]
  rw [← Fintype.piFinset_univ, ← Finset.prod_univ_sum]
  simp [letterProb_sum]

/-- Matching one letter. -/
theorem match_letter (hL : Function.Surjective L) (c : A) :
    mean (fun b => if c = L b then 1 / letterProb L (L b) else 0) = 1 := by
  have h : ∀ b, (if c = L b then 1 / letterProb L (L b) else 0) = 1 / letterProb L c * if L b = c then (1 : ℝ) else 0 := by
    intro b
    by_cases h : c = L b
    · rw [if_pos h, if_pos h.symm, ← h, mul_one]
    · rw [if_neg h, if_neg (Ne.symm h), mul_zero]
  rw [mean_congr h, mean_mul_left]
  exact one_div_mul_cancel (letterProb_pos hL c).ne'

/-- Two windows at distance `d > 0` show the same word with the same weight as two unrelated windows. -/
theorem match_window (hL : Function.Surjective L) (d : Nat) (hd : 0 < d) : ∀ m : Nat,
    mean (fun x : Fin (d + m) → B => ∏ i : Fin m, if L (x (i.castLE (by omega))) = L (x (i.natAdd d)) then
      1 / letterProb L (L (x (i.natAdd d))) else 0) = 1
  | 0 => by simp only [Finset.univ_eq_empty, Finset.prod_empty]; exact mean_const 1
  | m + 1 => by
    rw [← mean_equiv (Fin.snocEquiv (fun _ : Fin (d + m + 1) => B))]
    have h : ∀ ω : B × (Fin (d + m) → B),
        (∏ i : Fin (m + 1), if L (Fin.snocEquiv (fun _ : Fin (d + m + 1) => B) ω (i.castLE (by omega))) =
            L (Fin.snocEquiv (fun _ : Fin (d + m + 1) => B) ω (i.natAdd d)) then
          1 / letterProb L (L (Fin.snocEquiv (fun _ : Fin (d + m + 1) => B) ω (i.natAdd d))) else 0) =
        (∏ i : Fin m, if L (ω.2 (i.castLE (by omega))) = L (ω.2 (i.natAdd d)) then 1 / letterProb L (L (ω.2 (i.natAdd d))) else 0) *
          (if L (ω.2 ⟨m, by omega⟩) = L ω.1 then 1 / letterProb L (L ω.1) else 0) := by
      rintro ⟨b, y⟩
      rw [Fin.prod_univ_castSucc]
      have e1 : ∀ i : Fin m, Fin.snocEquiv (fun _ : Fin (d + m + 1) => B) (b, y) (i.castSucc.castLE (by omega)) =
          y (i.castLE (by omega)) := by
        intro i
        have : (i.castSucc.castLE (by omega) : Fin (d + m + 1)) = (i.castLE (by omega) : Fin (d + m)).castSucc := rfl
        rw [this]
        exact Fin.snoc_castSucc (α := fun _ => B) b y _
      have e2 : ∀ i : Fin m, Fin.snocEquiv (fun _ : Fin (d + m + 1) => B) (b, y) (i.castSucc.natAdd d) = y (i.natAdd d) := by
        intro i
        have : (i.castSucc.natAdd d : Fin (d + m + 1)) = (i.natAdd d : Fin (d + m)).castSucc := rfl
        rw [this]
        exact Fin.snoc_castSucc (α := fun _ => B) b y _
      have e3 : Fin.snocEquiv (fun _ : Fin (d + m + 1) => B) (b, y) ((Fin.last m).castLE (by omega)) = y ⟨m, by omega⟩ := by
        have : ((Fin.last m).castLE (by omega) : Fin (d + m + 1)) = (⟨m, by omega⟩ : Fin (d + m)).castSucc := rfl
        rw [this]
        exact Fin.snoc_castSucc (α := fun _ => B) b y _
      have e4 : Fin.snocEquiv (fun _ : Fin (d + m + 1) => B) (b, y) ((Fin.last m).natAdd d) = b := by
        have : ((Fin.last m).natAdd d : Fin (d + m + 1)) = Fin.last (d + m) := rfl
        rw [this]
        exact Fin.snoc_last (α := fun _ => B) b y
      simp only [e1, e2, e3, e4]
    rw [mean_congr h, mean_prod (fun (b : B) (y : Fin (d + m) → B) =>
        (∏ i : Fin m, if L (y (i.castLE (by omega))) = L (y (i.natAdd d)) then 1 / letterProb L (L (y (i.natAdd d))) else 0) *
          (if L (y ⟨m, by omega⟩) = L b then 1 / letterProb L (L b) else 0))]
    have h2 := fun y : Fin (d + m) → B => mean_mul_left
      (∏ i : Fin m, if L (y (i.castLE (by omega))) = L (y (i.natAdd d)) then 1 / letterProb L (L (y (i.natAdd d))) else 0)
      (fun b => if L (y ⟨m, by omega⟩) = L b then 1 / letterProb L (L b) else 0)
    rw [mean_congr h2]
    simp only [match_letter hL, mul_one]
    exact match_window hL d hd m

variable {J : Type*} [Fintype J] [DecidableEq J]

/-- Window `q` starts `d > 0` places after window `p` on a stretch of distinct coordinates. -/
def After {m : Nat} (p q : Fin m → J) : Prop :=
  ∃ d, 0 < d ∧ ∃ idx : Fin (d + m) → J, Function.Injective idx ∧ (∀ i : Fin m, p i = idx (i.castLE (by omega))) ∧
    ∀ i : Fin m, q i = idx (i.natAdd d)

variable (L) in
/-- The word seen through the window `p`. -/
def wordAt {m : Nat} (x : J → B) (p : Fin m → J) : Fin m → A := fun i => L (x (p i))

theorem ite_prod_eq {m : Nat} (u v : Fin m → A) (f : A → ℝ) :
    (if u = v then 1 / ∏ i, f (v i) else 0) = ∏ i, if u i = v i then 1 / f (v i) else 0 := by
  by_cases h : u = v
  · subst h; simp
  · rw [if_neg h]
    obtain ⟨i, hi⟩ := Function.ne_iff.1 h
    exact (Finset.prod_eq_zero (Finset.mem_univ i) (by rw [if_neg hi])).symm

theorem pair_after (hL : Function.Surjective L) {m : Nat} {p q : Fin m → J} (h : After p q) :
    mean (fun x : J → B => if wordAt L x p = wordAt L x q then 1 / wordProb L (wordAt L x q) else 0) = 1 := by
  obtain ⟨d, hd, idx, hinj, hp, hq⟩ := h
  refine Eq.trans ?_ (match_window hL d hd m)
  rw [← mean_restrict (A := B) idx hinj]
  refine mean_congr fun x => ?_
  rw [wordProb, ite_prod_eq (wordAt L x p) (wordAt L x q) (letterProb L)]
  refine Finset.prod_congr rfl fun i _ => ?_
  simp only [wordAt, hp, hq]

theorem pair_symm {m : Nat} {p q : Fin m → J} (x : J → B) :
    (if wordAt L x p = wordAt L x q then 1 / wordProb L (wordAt L x q) else 0) =
      if wordAt L x q = wordAt L x p then 1 / wordProb L (wordAt L x p) else 0 := by
  by_cases h : wordAt L x p = wordAt L x q
  · rw [if_pos h, if_pos h.symm, h]
  · rw [if_neg h, if_neg (Ne.symm h)]

theorem pair_self (hL : Function.Surjective L) {m : Nat} {p : Fin m → J} (hp : Function.Injective p) :
    mean (fun x : J → B => 1 / wordProb L (wordAt L x p)) = (Fintype.card A : ℝ) ^ m := by
  have h1 := mean_restrict (A := B) p hp (fun y : Fin m → B => ∏ i, 1 / letterProb L (L (y i)))
  have h2 : ∀ x : J → B, 1 / wordProb L (wordAt L x p) = ∏ i, 1 / letterProb L (L (x (p i))) := by
    intro x
    rw [wordProb, Finset.prod_div_distrib, Finset.prod_const_one]
    rfl
  rw [mean_congr h2, h1, mean, ← Fintype.piFinset_univ, ← Finset.prod_univ_sum (fun _ => (Finset.univ : Finset B))
    (fun _ b => 1 / letterProb L (L b)), Finset.prod_const, Fintype.card_fun, Finset.card_univ, Fintype.card_fin, Nat.cast_pow, ← div_pow]
  congr 1
  have h3 : ∀ b, (1 : ℝ) / letterProb L (L b) = ∑ c, if c = L b then 1 / letterProb L (L b) else 0 := by
    intro b
    rw [Finset.sum_ite_eq' , if_pos (Finset.mem_univ _)]
  have h4 : mean (fun b => 1 / letterProb L (L b)) = Fintype.card A := by
    rw [mean_congr h3, mean_sum]
    simp only [match_letter hL, Finset.sum_const, Finset.card_univ, nsmul_eq_mul, mul_one]
  exact h4

/-- Pearson's statistic of the words `X 0, ..., X (n-1)` against their probabilities `P`. -/
noncomputable def wordChi {W : Type*} [Fintype W] [DecidableEq W] (P : W → ℝ) {n : Nat} (X : Fin n → W) : ℝ :=
  ∑ w, (((Finset.univ.filter fun t => X t = w).card : ℝ) - n * P w) ^ 2 / (n * P w)

theorem wordChi_eq {W : Type*} [Fintype W] [DecidableEq W] (P : W → ℝ) (hP : ∀ w, 0 < P w) (hP1 : ∑ w, P w = 1) {n : Nat}
    (hn : 0 < n) (X : Fin n → W) :
    wordChi P X = (∑ t, ∑ s, if X t = X s then 1 / P (X s) else 0) / n - n := by
  have hn' : (n : ℝ) ≠ 0 := by exact_mod_cast hn.ne'
  have h1 : ∀ w, (((Finset.univ.filter fun t => X t = w).card : ℝ) - n * P w) ^ 2 / (n * P w) =
      ((Finset.univ.filter fun t => X t = w).card : ℝ) ^ 2 / P w / n - 2 * ((Finset.univ.filter fun t => X t = w).card : ℝ) + n * P w := by
    intro w
    have := (hP w).ne'
    field_simp
    ring
  rw [wordChi, Finset.sum_congr rfl fun w _ => h1 w, Finset.sum_add_distrib, Finset.sum_sub_distrib, ← Finset.mul_sum, ← Finset.mul_sum,
    hP1, ← Finset.sum_div]
  have h2 : ∑ w, ((Finset.univ.filter fun t => X t = w).card : ℝ) = n := by
    have := Finset.card_eq_sum_card_fiberwise (f := X) (s := Finset.univ) (t := Finset.univ) (fun _ _ => Finset.mem_univ _)
    rw [Finset.card_univ, Fintype.card_fin] at this
    exact_mod_cast this.symm
  have h3 : ∑ w, ((Finset.univ.filter fun t => X t = w).card : ℝ) ^ 2 / P w = ∑ t, ∑ s, if X t = X s then 1 / P (X s) else 0 := by
    have h4 : ∀ w, ((Finset.univ.filter fun t => X t = w).card : ℝ) ^ 2 / P w =
        ∑ t, ∑ s, if X t = w then (if X s = w then 1 / P w else 0) else 0 := by
      intro w
      rw [← Finset.sum_boole, pow_two, Finset.sum_mul_sum, Finset.sum_div]
      refine Finset.sum_congr rfl fun t _ => ?_
      rw [Finset.sum_div]
      refine Finset.sum_congr rfl fun s _ => ?_
      by_cases ht : X t = w <;> by_cases hs : X s = w <;> simp [ht, hs]
    rw [Finset.sum_congr rfl fun w _ => h4 w, Finset.sum_comm]
    refine Finset.sum_congr rfl fun t _ => ?_
    rw [Finset.sum_comm]
    refine Finset.sum_congr rfl fun s _ => ?_
    rw [Finset.sum_eq_single (X t)]
    · rw [if_pos rfl]
      by_cases h : X t = X s
      · rw [if_pos h, if_pos h.symm, h]
      · rw [if_neg h, if_neg (Ne.symm h)]
    · intro w _ hw
      rw [if_neg hw.symm]
    · intro h; exact absurd (Finset.mem_univ _) h
  rw [h2, h3]
  ring

/-- The mean of Pearson's statistic of windows any two of which are apart is the number of words minus one, as for independent
words. -/
theorem windowChi_mean (hL : Function.Surjective L) {n m : Nat} (hn : 0 < n) (pos : Fin n → Fin m → J)
    (hinj : ∀ t, Function.Injective (pos t)) (hpos : ∀ s t, s ≠ t → After (pos s) (pos t) ∨ After (pos t) (pos s)) :
    mean (fun x : J → B => wordChi (wordProb L) (fun t => wordAt L x (pos t))) = (Fintype.card A : ℝ) ^ m - 1 := by
  have hn' : (n : ℝ) ≠ 0 := by exact_mod_cast hn.ne'
  rw [mean_congr fun x => wordChi_eq (wordProb L) (wordProb_pos hL) (wordProb_sum m) hn _, mean_sub, mean_div, mean_const, mean_sum]
  have h : ∀ t, mean (fun x : J → B => ∑ s, if wordAt L x (pos t) = wordAt L x (pos s) then 1 / wordProb L (wordAt L x (pos s)) else 0) =
      (Fintype.card A : ℝ) ^ m + (n - 1) := by
    intro t
    rw [mean_sum, ← Finset.add_sum_erase _ _ (Finset.mem_univ t)]
    congr 1
    · simp only [if_true]
      exact pair_self hL (hinj t)
    · have : ∀ s ∈ Finset.univ.erase t, mean (fun x : J → B => if wordAt L x (pos t) = wordAt L x (pos s) then
          1 / wordProb L (wordAt L x (pos s)) else 0) = 1 := by
        intro s hs
        rcases hpos t s (Finset.ne_of_mem_erase hs).symm with h | h
        · exact pair_after hL h
        · rw [mean_congr fun x => pair_symm x]
          exact pair_after hL h
      rw [Finset.sum_congr rfl this, Finset.sum_const, Finset.card_erase_of_mem (Finset.mem_univ t), Finset.card_univ, Fintype.card_fin,
        nsmul_eq_mul, mul_one, Nat.cast_sub hn, Nat.cast_one]
  rw [Finset.sum_congr rfl fun t _ => h t, Finset.sum_const, Finset.card_univ, Fintype.card_fin, nsmul_eq_mul]
  field_simp
  ring

end
end Dh
