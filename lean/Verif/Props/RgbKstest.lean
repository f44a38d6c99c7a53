import Verif.Model.RgbKstest
import Verif.Props.KsExact
/-
C108: the test rgb_kstest_test.
-/
namespace Dh
open MeasureTheory ProbabilityTheory

section
variable {F : Type*} [Field F] [LinearOrder F] [IsStrictOrderedRing F]

theorem rgbKstestFill_eq (u : Nat → F) : ∀ (todo t : Nat) (v : List F), v.length = t + todo →
    ∃ w, rgbKstestFill u todo t v = .ok w ∧ w.length = v.length ∧ (∀ k, k < t → w[k]? = v[k]?) ∧ ∀ k, t ≤ k → k < t + todo → w[k]? = some (u k)
  | 0, t, v, _ => ⟨v, rfl, rfl, fun _ _ => rfl, fun k h1 h2 => absurd h2 (by omega)⟩
  | todo + 1, t, v, h => by
    obtain ⟨w, h1, h2, h3, h4⟩ := rgbKstestFill_eq u todo (t + 1) (v.set t (u t)) (by rw [List.length_set]; omega)
    refine ⟨w, ?_, by rw [h2, List.length_set], fun k hk => ?_, fun k hk hk2 => ?_⟩
    · rw [rgbKstestFill, wr, if_pos (by omega), Res.bind_ok, h1]
    · rw [h3 k (by omega), List.getElem?_set_ne (by omega)]
    · rcases Nat.eq_or_lt_of_le hk with rfl | hk3
      · rw [h3 t (by omega), List.getElem?_set_self (by omega)]
      · exact h4 k hk3 (by omega)

theorem rgbKstestFill_ofFn (u : Nat → F) (garbage : List F) (n : Nat) (h : garbage.length = n) :
    rgbKstestFill u n 0 garbage = .ok (List.ofFn fun i : Fin n => u i) := by
  obtain ⟨w, h1, h2, -, h4⟩ := rgbKstestFill_eq u n 0 garbage (by omega)
  rw [h1]
  congr 1
  refine List.ext_getElem? fun k => ?_
  rcases Nat.lt_or_ge k n with hk | hk
  · rw [h4 k (Nat.zero_le _) (by omega), List.getElem?_ofFn, dif_pos hk]
  · rw [List.getElem?_eq_none (by omega), List.getElem?_eq_none (by rw [List.length_ofFn]; exact hk)]

/-- **C108.** The p-value depends on nothing but the `tsamples` deviates, and not on their order: not on what `malloc` left in the vector, not
on later deviates. -/
theorem C108_order (K Q : Nat → F → F) (ksTest n : Nat) (g g' : List F) (hg : g.length = n) (hg' : g'.length = n) (u u' : Nat → F)
    (h : ∀ x, ((Finset.range n).filter fun i => u i = x).card = ((Finset.range n).filter fun i => u' i = x).card) :
    rgbKstest K Q ksTest g u n = rgbKstest K Q ksTest g' u' n ∧ ∃ p, rgbKstest K Q ksTest g u n = .ok p := by
  have hp : (List.ofFn fun i : Fin n => u i).Perm (List.ofFn fun i : Fin n => u' i) := by
    rw [List.perm_iff_count]
    intro x
    have key : ∀ v : Nat → F, (List.ofFn fun i : Fin n => v i).count x = ((Finset.range n).filter fun i => v i = x).card := by
      intro v
      have e : (List.ofFn fun i : Fin n => v i) = (List.range n).map v := by
        rw [List.ofFn_eq_map, ← List.map_coe_finRange_eq_range, List.map_map]
        rfl
      rw [e, List.count_eq_countP, List.countP_map, List.countP_eq_length_filter, Finset.card_def, Finset.filter_val, Finset.range_val, Multiset.range,
        Multiset.filter_coe, Multiset.coe_card]
      congr 2
    rw [key, key, h x]
  have hl : ∀ v : Nat → F, (List.ofFn fun i : Fin n => v i).length = n := fun v => List.length_ofFn
  simp only [rgbKstest, rgbKstestFill_ofFn u g n hg, rgbKstestFill_ofFn u' g' n hg', Res.bind_ok]
  have fst_bind : ∀ r : Res (F × List F), (do let (p, _) ← r; .ok p : Res F) = r.map Prod.fst := fun r => by
    cases r <;> rfl
  rw [fst_bind, fst_bind]
  split
  · have e := C17_kuiper_order Q _ _ hp
    rw [hl, hl] at e
    refine ⟨e, ?_⟩
    rw [kstestKuiper]
    split
    · rename_i h1
      subst h1
      exact ⟨u 0, rfl⟩
    · rw [if_neg (by rw [hl]; omega)]
      exact ⟨_, rfl⟩
  · have e := C17_kstest_order K _ _ hp
    rw [hl, hl] at e
    refine ⟨e, ?_⟩
    rw [kstest]
    split
    · exact ⟨_, rfl⟩
    · split
      · rename_i h1
        subst h1
        exact ⟨u 0, rfl⟩
      · rw [if_neg (by rw [hl]; omega)]
        exact ⟨_, rfl⟩

end

/-! ### Good generators -/

variable {Ω : Type*} [MeasurableSpace Ω] {μ : Measure Ω} [IsProbabilityMeasure μ]

/-- **C108.** With `-k 2` the p-value is valid: on independent uniform deviates it is at most `α` with probability at most `α`; with a single
deviate, with probability exactly `α`. -/
theorem C108_valid {U : ℕ → Ω → ℝ} (hm : ∀ i, Measurable (U i)) (hi : iIndepFun U μ)
    (hl : ∀ i, μ.map (U i) = volume.restrict (Set.Icc 0 1)) (easy : ℕ → ℝ → ℝ) (K Q : ℕ → ℝ → ℝ) (n : ℕ)
    (hK : ∀ d : ℝ, 0 ≤ d → pKsNew easy 2 n d = .ok (K n d)) (g : List ℝ) (hg : g.length = n) (α : ℝ) (hα : 0 ≤ α) :
    (2 ≤ n → μ.real {ω | ∃ p, rgbKstest K Q 2 g (fun i => U i ω) n = .ok p ∧ p ≤ α} ≤ α) ∧
    (n = 1 → α ≤ 1 → μ.real {ω | ∃ p, rgbKstest K Q 2 g (fun i => U i ω) n = .ok p ∧ p ≤ α} = α) := by
  constructor
  · intro hn
    have hi' : iIndepFun (fun i : Fin n => U i) μ := hi.precomp Fin.val_injective
    have h := C82_valid hn (U := fun i : Fin n => U i) (fun i => hm i) hi' (fun i => hl i) easy K hK α hα
    refine le_trans (le_of_eq ?_) h
    congr 1
    ext ω
    simp only [Set.mem_ofPred_eq, rgbKstest, rgbKstestFill_ofFn _ g n hg, Res.bind_ok, show ¬ 2 ≥ 3 by omega, if_false]
    generalize kstest K (List.ofFn fun i : Fin n => U i ω) n = r
    cases r with
    | ok x => exact ⟨fun ⟨p, h1, h2⟩ => ⟨x.1, x.2, rfl, by cases h1; exact h2⟩, fun ⟨p, s, h1, h2⟩ => ⟨p, by cases h1; rfl, h2⟩⟩
    | exit => exact ⟨fun ⟨p, h1, _⟩ => (nomatch h1), fun ⟨p, s, h1, _⟩ => (nomatch h1)⟩
    | ub => exact ⟨fun ⟨p, h1, _⟩ => (nomatch h1), fun ⟨p, s, h1, _⟩ => (nomatch h1)⟩
    | loop => exact ⟨fun ⟨p, h1, _⟩ => (nomatch h1), fun ⟨p, s, h1, _⟩ => (nomatch h1)⟩
  · rintro rfl h1
    have e : {ω | ∃ p, rgbKstest K Q 2 g (fun i => U i ω) 1 = .ok p ∧ p ≤ α} = U 0 ⁻¹' Set.Iic α := by
      ext ω
      simp only [Set.mem_ofPred_eq, rgbKstest, rgbKstestFill_ofFn _ g 1 hg, Res.bind_ok, show ¬ 2 ≥ 3 by omega, if_false, Set.mem_preimage,
        Set.mem_Iic]
      have : kstest K (List.ofFn fun i : Fin 1 => U i ω) 1 = .ok (U 0 ω, [U 0 ω]) := rfl
      rw [this]
      exact ⟨fun ⟨p, h1, h2⟩ => by cases h1; exact h2, fun h => ⟨_, rfl, h⟩⟩
    rw [e, Measure.real, ← Measure.map_apply (hm 0) measurableSet_Iic, hl 0, Measure.restrict_apply measurableSet_Iic]
    have : Set.Iic α ∩ Set.Icc (0 : ℝ) 1 = Set.Icc 0 α := by
      ext x
      simp only [Set.mem_inter_iff, Set.mem_Iic, Set.mem_Icc]
      constructor
      · rintro ⟨a, b, -⟩; exact ⟨b, a⟩
      · rintro ⟨a, b⟩; exact ⟨b, a, by linarith⟩
    rw [this, Real.volume_Icc, sub_zero, ENNReal.toReal_ofReal hα]

-- three deviates, evenly spaced (distance 0) and not (distance 1/4); their Kuiper distance
example : rgbKstest (fun n d => (n : ℚ) + d) (fun _ d => d) 0 [7, 7, 7] (fun i => [1/2, 3/4, 1/4, 9].getD i 0) 3 = .ok 3 ∧
    rgbKstest (fun n d => (n : ℚ) + d) (fun _ d => d) 0 [0, 0, 0] (fun i => [1/2, 1/2, 1/4, 8].getD i 0) 3 = .ok (13/4) ∧
    rgbKstest (fun n d => (n : ℚ) + d) (fun _ d => d) 3 [0, 0, 0] (fun i => [1/2, 3/4, 1/4].getD i 0) 3 = .ok (1/4) := by decide +kernel

end Dh
