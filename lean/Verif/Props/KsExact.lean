import Verif.Proof.KsExact2
import Verif.Props.KsDist
import Mathlib.Probability.Independence.Basic
import Mathlib.MeasureTheory.Constructions.Pi
import Mathlib.Data.List.OfFn
import Mathlib.Data.Fintype.Perm
/-
C81, C82: `p_ks_new` is the distribution function of the Kolmogorov-Smirnov distance; what that means for the p-values of `kstest`.
-/
namespace Dh
open MeasureTheory ProbabilityTheory

variable {Ω : Type*} [MeasurableSpace Ω] {μ : Measure Ω} [IsProbabilityMeasure μ]

theorem ks_exact_matrix {n : ℕ} (hn : 0 < n) {U : Fin n → Ω → ℝ} (hm : ∀ i, Measurable (U i)) (hi : iIndepFun U μ)
    (hl : ∀ i, μ.map (U i) = volume.restrict (Set.Icc 0 1)) (d : ℝ) (hd : 0 < d) (k : ℕ) (hk1 : (k : ℝ) - 1 ≤ n * d) (hk2 : n * d < k)
    (hc : k - 1 < 2 * k - 1) :
    μ.real {ω | Spec.ksDistance (fun i => U i ω) < d} =
      n.factorial / n ^ n * (Spec.mtwMatrix (2 * k - 1) ((k : ℝ) - n * d) ^ n) ⟨k - 1, hc⟩ ⟨k - 1, hc⟩ := by
  rw [(ks_exact_prob hn hm hi hl d hd k hk1 hk2).1,
    ksW_eq_pow k (by omega) (k - n * d) (Spec.mtwMatrix (2 * k - 1) ((k : ℝ) - n * d)) (fun i j => rfl) hc, if_pos (by simp only; omega)]
  simp only
  rw [show k - 1 + n + 1 - k = n by omega]
  ring

/-- **C81.** `p_ks_new(n, d)`, where it does not take the shortcut, is the probability that `n` independent values, uniform on `[0, 1]`,
have a Kolmogorov-Smirnov distance of `d` or more. -/
theorem C81_exact {n : ℕ} (hn : 0 < n) {U : Fin n → Ω → ℝ} (hm : ∀ i, Measurable (U i)) (hi : iIndepFun U μ)
    (hl : ∀ i, μ.map (U i) = volume.restrict (Set.Icc 0 1)) (easy : ℕ → ℝ → ℝ) (ksTest : ℕ) (d : ℝ) (hd : 0 ≤ d)
    (hs : ksTest = 2 ∨ (d * d * n ≤ 7.24 ∧ (d * d * n ≤ 3.76 ∨ n ≤ 99))) :
    pKsNew easy ksTest n d = .ok (μ.real {ω | d ≤ Spec.ksDistance (fun i => U i ω)}) := by
  have hn' : (0 : ℝ) < n := by exact_mod_cast hn
  rcases hd.eq_or_lt with h0 | h0
  · subst h0
    have : {ω | 0 ≤ Spec.ksDistance (fun i => U i ω)} = Set.univ := Set.eq_univ_of_forall fun ω => ksDistance_nonneg hn _
    rw [this, probReal_univ, C76_small easy ksTest n 0 hn (le_refl _) (by rw [mul_zero]; exact one_pos), max_eq_right, zero_pow (by omega)]
    · norm_num
    · have : 0 < 1 / (n : ℝ) := by positivity
      linarith
  · have hf : 0 ≤ ⌊(n : ℝ) * d⌋ := Int.floor_nonneg.2 (by positivity)
    have e : (((⌊(n : ℝ) * d⌋).toNat + 1 : ℕ) : ℝ) = (⌊(n : ℝ) * d⌋ : ℝ) + 1 := by
      rw [Nat.cast_add, Nat.cast_one, ← Int.cast_natCast, Int.toNat_of_nonneg hf]
    have h1 : (((⌊(n : ℝ) * d⌋).toNat + 1 : ℕ) : ℝ) - 1 ≤ n * d := by rw [e]; linarith [Int.floor_le ((n : ℝ) * d)]
    have h2 : (n : ℝ) * d < ((⌊(n : ℝ) * d⌋).toNat + 1 : ℕ) := by rw [e]; exact Int.lt_floor_add_one _
    obtain ⟨q, a, b⟩ := C76_p_ks_new easy ksTest n d hn hd hs _ h1 h2
    have hc : (⌊(n : ℝ) * d⌋).toNat + 1 - 1 < 2 * ((⌊(n : ℝ) * d⌋).toNat + 1) - 1 := by omega
    have hset : {ω | d ≤ Spec.ksDistance (fun i => U i ω)} = {ω | Spec.ksDistance (fun i => U i ω) < d}ᶜ := by
      ext ω; simp
    rw [a, b hc, hset, probReal_compl_eq_one_sub₀ (ks_exact_prob hn hm hi hl d h0 _ h1 h2).2, ks_exact_matrix hn hm hi hl d h0 _ h1 h2 hc]

theorem sorted_le {s : List ℝ} (hs : s.Pairwise (· ≤ ·)) {i j : ℕ} (hij : i ≤ j) (hj : j < s.length) : s[i] ≤ s[j] := by
  rcases hij.eq_or_lt with rfl | h
  · exact le_refl _
  · exact List.pairwise_iff_getElem.1 hs i j (by omega) hj h

/-- The statistic of `kstest` is at most the Kolmogorov-Smirnov distance. -/
theorem ks_stat_le {n : ℕ} (hn : 0 < n) (u : Fin n → ℝ) (hu0 : ∀ i, 0 ≤ u i) (hu1 : ∀ i, u i ≤ 1) (s : List ℝ) (hp : s.Perm (List.ofFn u))
    (hs : s.Pairwise (· ≤ ·)) (j : ℕ) (hj : j < s.length) : |s[j] - ((j + 1 : ℕ) : ℝ) / ((n : ℝ) + 1)| ≤ Spec.ksDistance u := by
  classical
  have hn' : (0 : ℝ) < n := by exact_mod_cast hn
  have hlen : s.length = n := by rw [hp.length_eq, List.length_ofFn]
  have hcount : ∀ P : ℝ → Prop, (Finset.univ.filter fun i => P (u i)).card = s.countP fun v => decide (P v) := by
    intro P
    rw [hp.countP_eq, List.ofFn_eq_map, List.countP_map, List.countP_eq_length_filter]
    rfl
  have hmem : s[j] ∈ List.ofFn u := hp.subset (List.getElem_mem hj)
  obtain ⟨i0, hi0⟩ := (List.mem_ofFn' _ _).1 hmem
  have h0 : 0 ≤ s[j] := by rw [← hi0]; exact hu0 _
  have h1 : s[j] ≤ 1 := by rw [← hi0]; exact hu1 _
  have hjn : ((j : ℝ) + 1) ≤ n := by exact_mod_cast (by omega : j + 1 ≤ n)
  have hj0 : (0 : ℝ) ≤ j := Nat.cast_nonneg j
  have hDn := ksDistance_nonneg hn u
  have e1 : (j : ℝ) / n ≤ (j + 1 : ℝ) / (n + 1) := by rw [div_le_div_iff₀ hn' (by linarith)]; nlinarith
  have e2 : (j + 1 : ℝ) / (n + 1) ≤ (j + 1) / n := by gcongr; linarith
  push_cast
  rw [abs_le]
  constructor
  · have hle := le_ksDistance hn u s[j] h0 h1
    have hc : (j : ℝ) + 1 ≤ ((Finset.univ.filter fun i => u i ≤ s[j]).card : ℝ) := by
      rw [hcount fun v => v ≤ s[j]]
      have : j + 1 ≤ s.countP fun v => decide (v ≤ s[j]) := by
        have hsub := (List.take_sublist (j + 1) s).countP_le (p := fun v => decide (v ≤ s[j]))
        have hall : ((s.take (j + 1)).countP fun v => decide (v ≤ s[j])) = (s.take (j + 1)).length := by
          rw [List.countP_eq_length]
          intro v hv
          obtain ⟨i, hi, rfl⟩ := List.getElem_of_mem hv
          rw [List.length_take] at hi
          rw [List.getElem_take, decide_eq_true_iff]
          exact sorted_le hs (by omega) hj
        rw [hall, List.length_take] at hsub
        omega
      exact_mod_cast this
    have h3 : ((j : ℝ) + 1) / n ≤ ((Finset.univ.filter fun i => u i ≤ s[j]).card : ℝ) / n := by gcongr
    have := (abs_le.1 hle).2
    linarith
  · by_contra hlt
    rw [not_le] at hlt
    set D := Spec.ksDistance u
    have hpos : D + j / n < s[j] := by linarith
    have hy0 : 0 ≤ (D + j / n + s[j]) / 2 := by have : 0 ≤ (j : ℝ) / n := by positivity
                                                linarith
    have hle := le_ksDistance hn u ((D + j / n + s[j]) / 2) hy0 (by linarith)
    have hc : ((Finset.univ.filter fun i => u i ≤ (D + j / n + s[j]) / 2).card : ℝ) ≤ j := by
      rw [hcount fun v => v ≤ (D + j / n + s[j]) / 2]
      have : (s.countP fun v => decide (v ≤ (D + j / n + s[j]) / 2)) ≤ j := by
        have key : ∀ y : ℝ, y < s[j] → (s.countP fun v => decide (v ≤ y)) ≤ j := by
          intro y hy
          conv_lhs => rw [← List.take_append_drop j s]
          rw [List.countP_append]
          have h4 : ((s.drop j).countP fun v => decide (v ≤ y)) = 0 := by
            rw [List.countP_eq_zero]
            intro v hv
            obtain ⟨i, hi, rfl⟩ := List.getElem_of_mem hv
            rw [List.length_drop] at hi
            rw [List.getElem_drop, decide_eq_true_iff, not_le]
            have := sorted_le hs (Nat.le_add_right j i) (by omega : j + i < s.length)
            linarith
          have h5 := List.countP_le_length (p := fun v => decide (v ≤ y)) (l := s.take j)
          rw [List.length_take] at h5
          omega
        exact key _ (by linarith)
      exact_mod_cast this
    have h3 : ((Finset.univ.filter fun i => u i ≤ (D + j / n + s[j]) / 2).card : ℝ) / n ≤ j / n := by gcongr
    have := (abs_le.1 hle).1
    linarith

/-- A probability integral transform: for any statistic, the p-value computed from its own tail is at most `α` with probability at most `α`. -/
theorem pvalue_valid (D : Ω → ℝ) (hD : ∀ ω, 0 ≤ D ω) (α : ℝ) (hα : 0 ≤ α) : μ.real {ω | μ.real {ω' | D ω ≤ D ω'} ≤ α} ≤ α := by
  let G : ℝ → ℝ := fun t => μ.real {ω' | t ≤ D ω'}
  have hG : Antitone G := fun a b hab => measureReal_mono fun ω hω => le_trans hab hω
  by_cases hne : ∃ ω, G (D ω) ≤ α
  swap
  · have : {ω | μ.real {ω' | D ω ≤ D ω'} ≤ α} = ∅ := Set.eq_empty_of_forall_notMem fun ω hω => hne ⟨ω, hω⟩
    rw [this, measureReal_empty]; exact hα
  -- the infimum of the values whose tail is small
  let A : Set ℝ := {t | 0 ≤ t ∧ G t ≤ α}
  have hA : A.Nonempty := by obtain ⟨ω, h⟩ := hne; exact ⟨D ω, hD ω, h⟩
  have hB : BddBelow A := ⟨0, fun t ht => ht.1⟩
  have hsub : {ω | μ.real {ω' | D ω ≤ D ω'} ≤ α} ⊆ {ω | sInf A ≤ D ω} := fun ω hω => csInf_le hB ⟨hD ω, hω⟩
  by_cases hmem : G (sInf A) ≤ α
  · exact le_trans (measureReal_mono hsub) hmem
  · have hsub2 : {ω | μ.real {ω' | D ω ≤ D ω'} ≤ α} ⊆ ⋃ m : ℕ, {ω | sInf A + 1 / ((m : ℝ) + 1) ≤ D ω} := by
      intro ω hω
      have hlt : sInf A < D ω := by
        refine lt_of_le_of_ne (hsub hω) fun heq => hmem ?_
        rw [heq]; exact hω
      obtain ⟨m, hm⟩ := exists_nat_one_div_lt (sub_pos.2 hlt)
      exact Set.mem_iUnion.2 ⟨m, by show sInf A + 1 / ((m : ℝ) + 1) ≤ D ω; linarith⟩
    have hmono : Monotone fun m : ℕ => {ω | sInf A + 1 / ((m : ℝ) + 1) ≤ D ω} := by
      intro a b hab ω hω
      have : 1 / ((b : ℝ) + 1) ≤ 1 / ((a : ℝ) + 1) := Nat.one_div_le_one_div hab
      have hω' : sInf A + 1 / ((a : ℝ) + 1) ≤ D ω := hω
      show sInf A + 1 / ((b : ℝ) + 1) ≤ D ω
      linarith
    have hle : ∀ m : ℕ, μ {ω | sInf A + 1 / ((m : ℝ) + 1) ≤ D ω} ≤ ENNReal.ofReal α := by
      intro m
      have hp : (0 : ℝ) < 1 / ((m : ℝ) + 1) := by positivity
      obtain ⟨t, ht, htl⟩ := exists_lt_of_csInf_lt hA (by linarith : sInf A < sInf A + 1 / ((m : ℝ) + 1))
      have : G (sInf A + 1 / ((m : ℝ) + 1)) ≤ α := le_trans (hG htl.le) ht.2
      rw [← ENNReal.ofReal_toReal (measure_ne_top μ _)]
      exact ENNReal.ofReal_le_ofReal this
    have hU : μ (⋃ m : ℕ, {ω | sInf A + 1 / ((m : ℝ) + 1) ≤ D ω}) ≤ ENNReal.ofReal α := by
      rw [hmono.measure_iUnion]
      exact iSup_le hle
    have := measure_mono (μ := μ) hsub2
    refine ENNReal.toReal_le_of_le_ofReal hα (le_trans this hU)

/-- **C82.** With the exact distribution (`-k 2`) the p-value of `kstest` is valid: for independent uniform samples it is at most `α` with
probability at most `α`. -/
theorem C82_valid {n : ℕ} (hn : 2 ≤ n) {U : Fin n → Ω → ℝ} (hm : ∀ i, Measurable (U i)) (hi : iIndepFun U μ)
    (hl : ∀ i, μ.map (U i) = volume.restrict (Set.Icc 0 1)) (easy : ℕ → ℝ → ℝ) (K : ℕ → ℝ → ℝ)
    (hK : ∀ d : ℝ, 0 ≤ d → pKsNew easy 2 n d = .ok (K n d)) (α : ℝ) (hα : 0 ≤ α) :
    μ.real {ω | ∃ p s, kstest K (List.ofFn fun i => U i ω) n = .ok (p, s) ∧ p ≤ α} ≤ α := by
  have hn0 : 0 < n := by omega
  have hK' : ∀ d, 0 ≤ d → K n d = μ.real {ω | d ≤ Spec.ksDistance (fun i => U i ω)} := by
    intro d hd
    have h1 := hK d hd
    rw [C81_exact hn0 hm hi hl easy 2 d hd (.inl rfl)] at h1
    injection h1 with h1
    exact h1.symm
  have hX := unifPts_scale (n := 1) one_pos hm hi hl
  have hae : ∀ᵐ ω ∂μ, ∀ i, 0 ≤ U i ω ∧ U i ω ≤ 1 := by
    rw [ae_all_iff]; intro i
    have h2 : ∀ᵐ x ∂(μ.map (U i)), 0 ≤ x ∧ x ≤ 1 := by
      rw [hl i]
      filter_upwards [ae_restrict_mem measurableSet_Icc] with x hx
      exact hx
    exact ae_of_ae_map (hm i).aemeasurable h2
  refine le_trans ?_ (pvalue_valid (μ := μ) (fun ω => Spec.ksDistance fun i => U i ω) (fun ω => ksDistance_nonneg hn0 _) α hα)
  refine ENNReal.toReal_mono (measure_ne_top _ _) (measure_mono_ae ?_)
  filter_upwards [hae] with ω hω
  rintro ⟨p, s, h1, h2⟩
  show μ.real {ω' | Spec.ksDistance (fun i => U i ω) ≤ Spec.ksDistance (fun i => U i ω')} ≤ α
  have hlen : (List.ofFn fun i => U i ω).length = n := List.length_ofFn
  obtain ⟨s', D, k1, k2, k3, k4, k5, -⟩ := C17_kstest_statistic K (List.ofFn fun i => U i ω) (by rw [hlen]; exact hn)
  rw [hlen] at k1 k4
  rw [k1] at h1
  injection h1 with h1
  obtain ⟨j, hj, e⟩ := k4.1
  have hle : D ≤ Spec.ksDistance fun i => U i ω := by
    rw [e]; exact ks_stat_le hn0 _ (fun i => (hω i).1) (fun i => (hω i).2) s' k2 k3 j hj
  have hp : p = K n D := (congrArg Prod.fst h1).symm
  rw [hp, hK' D k5] at h2
  exact le_trans (measureReal_mono fun ω' hω' => le_trans hle hω') h2

/-- **C82, failure.** The p-value of `kstest` has an atom at 1: for independent uniform samples it is exactly 1 with probability at least
`n! / (n+1)^n`, as its statistic may be below the least Kolmogorov-Smirnov distance that `n` values can have. -/
theorem C82_atom {n : ℕ} (hn : 2 ≤ n) {U : Fin n → Ω → ℝ} (hm : ∀ i, Measurable (U i)) (hi : iIndepFun U μ)
    (hl : ∀ i, μ.map (U i) = volume.restrict (Set.Icc 0 1)) (easy : ℕ → ℝ → ℝ) (ksTest : ℕ) (K : ℕ → ℝ → ℝ)
    (hK : ∀ d : ℝ, 0 ≤ d → n * d < 1 → pKsNew easy ksTest n d = .ok (K n d)) :
    n.factorial / (n + 1 : ℝ) ^ n ≤ μ.real {ω | ∃ s, kstest K (List.ofFn fun i => U i ω) n = .ok (1, s)} := by
  have hn0 : 0 < n := by omega
  have hn' : (0 : ℝ) < n := by exact_mod_cast hn0
  have hn1 : (0 : ℝ) < n + 1 := by linarith
  let B : Fin n → Set ℝ := fun j => Set.Ico (((j : ℕ) + 1 / 2 : ℝ) / (n + 1)) (((j : ℕ) + 1 / 2 + 1 : ℝ) / (n + 1))
  have hB : ∀ j, MeasurableSet (B j) := fun j => measurableSet_Ico
  have hBlt : ∀ j j' : Fin n, j < j' → ∀ x ∈ B j, ∀ y ∈ B j', x < y := by
    intro j j' hjj x hx y hy
    have h1 : ((j : ℕ) + 1 / 2 + 1 : ℝ) / (n + 1) ≤ ((j' : ℕ) + 1 / 2 : ℝ) / (n + 1) := by
      have : ((j : ℕ) : ℝ) + 1 ≤ (j' : ℕ) := by exact_mod_cast hjj
      exact div_le_div_of_nonneg_right (by linarith) hn1.le
    linarith [hx.2, hy.1]
  have hX := unifPts_scale (n := 1) one_pos hm hi hl
  have hBp : ∀ i j, μ.real (U i ⁻¹' B j) = 1 / (n + 1) := by
    intro i j
    have hj1 : ((j : ℕ) : ℝ) + 1 ≤ n := by exact_mod_cast j.2
    have h := (hX.law i _ _ (by positivity : (0 : ℝ) ≤ ((j : ℕ) + 1 / 2 : ℝ) / (n + 1))
      (div_le_div_of_nonneg_right (by linarith) hn1.le : ((j : ℕ) + 1 / 2 : ℝ) / (n + 1) ≤ ((j : ℕ) + 1 / 2 + 1 : ℝ) / (n + 1))
      (by rw [Nat.cast_one, div_le_one hn1]; linarith)).1
    simp only [Nat.cast_one, one_mul, div_one] at h
    rw [← sub_div, add_sub_cancel_left] at h
    exact h
  let E : Equiv.Perm (Fin n) → Set Ω := fun σ => ⋂ i ∈ Finset.univ, U i ⁻¹' B (σ i)
  have hEp : ∀ σ, μ.real (E σ) = 1 / (n + 1 : ℝ) ^ n := by
    intro σ
    have h := hi.measure_inter_preimage_eq_mul Finset.univ (sets := fun i => B (σ i)) (fun i _ => hB _)
    rw [Measure.real, h, ENNReal.toReal_prod]
    have : ∀ i ∈ Finset.univ, (μ (U i ⁻¹' B (σ i))).toReal = 1 / (n + 1) := fun i _ => hBp i _
    rw [Finset.prod_congr rfl this, Finset.prod_const, Finset.card_univ, Fintype.card_fin, div_pow, one_pow]
  have hEm : ∀ σ, MeasurableSet (E σ) := fun σ => Finset.measurableSet_biInter _ fun i _ => hm i (hB _)
  have hEmem : ∀ σ ω, ω ∈ E σ → ∀ i, U i ω ∈ B (σ i) := by
    intro σ ω hω i
    simp only [E, Set.mem_iInter] at hω
    exact hω i (Finset.mem_univ i)
  have hsum : μ.real (⋃ σ ∈ (Finset.univ : Finset (Equiv.Perm (Fin n))), E σ) = n.factorial / (n + 1 : ℝ) ^ n := by
    rw [measureReal_biUnion_finset]
    · simp only [hEp]
      rw [Finset.sum_const, Finset.card_univ, Fintype.card_perm, Fintype.card_fin, nsmul_eq_mul]
      ring
    · intro σ _ τ _ hne
      refine Set.disjoint_left.2 fun ω h1 h2 => hne ?_
      ext i
      by_contra hc
      have a := hEmem σ ω h1 i
      have b := hEmem τ ω h2 i
      rcases lt_or_gt_of_ne (fun h => hc (congrArg Fin.val h) : σ i ≠ τ i) with h | h
      · exact lt_irrefl _ (hBlt _ _ h _ a _ b)
      · exact lt_irrefl _ (hBlt _ _ h _ b _ a)
    · exact fun σ _ => hEm σ
  rw [← hsum]
  refine measureReal_mono fun ω hω => ?_
  simp only [Set.mem_iUnion] at hω
  obtain ⟨σ, -, hσ⟩ := hω
  have hu := hEmem σ ω hσ
  have hlen : (List.ofFn fun i => U i ω).length = n := List.length_ofFn
  obtain ⟨s, D, k1, k2, k3, k4, k5, -⟩ := C17_kstest_statistic K (List.ofFn fun i => U i ω) (by rw [hlen]; exact hn)
  rw [hlen] at k1 k4
  have hs : s = List.ofFn fun j => U (σ.symm j) ω := by
    refine List.Perm.eq_of_pairwise' k3 ?_ (k2.trans ?_)
    · rw [List.pairwise_ofFn]
      intro a b hab
      have ha := hu (σ.symm a)
      have hb := hu (σ.symm b)
      rw [Equiv.apply_symm_apply] at ha hb
      exact (hBlt a b hab _ ha _ hb).le
    · exact (Equiv.Perm.ofFn_comp_perm σ.symm fun i => U i ω).symm
  obtain ⟨j, hj, e⟩ := k4.1
  have hjn : j < n := by rw [hs, List.length_ofFn] at hj; exact hj
  have hDle : D ≤ 1 / 2 / (n + 1) := by
    rw [e]
    have hval : s[j] = U (σ.symm ⟨j, hjn⟩) ω := by
      simp only [hs, List.getElem_ofFn]
    have hb := hu (σ.symm ⟨j, hjn⟩)
    rw [Equiv.apply_symm_apply, ← hval] at hb
    have e1 : ((j : ℝ) + 1 / 2) / (n + 1) = ((j + 1 : ℕ) : ℝ) / (n + 1) - 1 / 2 / (n + 1) := by push_cast; ring
    have e2 : ((j : ℝ) + 1 / 2 + 1) / (n + 1) = ((j + 1 : ℕ) : ℝ) / (n + 1) + 1 / 2 / (n + 1) := by push_cast; ring
    have h1 := hb.1
    have h2 := hb.2
    simp only at h1 h2
    rw [e1] at h1
    rw [e2] at h2
    rw [abs_le]
    constructor <;> linarith
  have hsmall : 2 * D ≤ 1 / n := by
    have : 1 / (n + 1 : ℝ) ≤ 1 / n := by gcongr; linarith
    have h2 : 2 * (1 / 2 / (n + 1 : ℝ)) = 1 / (n + 1) := by ring
    linarith
  have hnD : n * D < 1 := by
    have := mul_le_mul_of_nonneg_left hsmall hn'.le
    rw [mul_one_div_cancel hn'.ne'] at this
    linarith
  refine ⟨s, ?_⟩
  have h1 := hK D k5 hnD
  rw [C76_small easy ksTest n D hn0 k5 hnD, max_eq_right (by linarith), zero_pow (by omega), mul_zero, sub_zero] at h1
  injection h1 with h1
  rw [k1, ← h1]

/-- Independent uniform values exist, for every number of them. -/
example (n : ℕ) : ∃ (Ω : Type) (_ : MeasurableSpace Ω) (μ : Measure Ω) (_ : IsProbabilityMeasure μ) (U : Fin n → Ω → ℝ),
    (∀ i, Measurable (U i)) ∧ iIndepFun U μ ∧ ∀ i, μ.map (U i) = volume.restrict (Set.Icc 0 1) := by
  have hp : IsProbabilityMeasure (volume.restrict (Set.Icc (0 : ℝ) 1)) := ⟨by simp⟩
  refine ⟨Fin n → ℝ, inferInstance, Measure.pi fun _ => volume.restrict (Set.Icc 0 1), inferInstance, fun i ω => ω i, measurable_pi_apply,
    iIndepFun_pi (X := fun _ x => x) fun _ => aemeasurable_id, fun i => ?_⟩
  exact (measurePreserving_eval (fun _ => volume.restrict (Set.Icc (0 : ℝ) 1)) i).map_eq

/-- Two values have a distance of 3/8 or more with probability 7/8. -/
example {U : Fin 2 → Ω → ℝ} (hm : ∀ i, Measurable (U i)) (hi : iIndepFun U μ)
    (hl : ∀ i, μ.map (U i) = volume.restrict (Set.Icc 0 1)) : μ.real {ω | 3 / 8 ≤ Spec.ksDistance (fun i => U i ω)} = 7 / 8 := by
  have h := C81_exact (by norm_num) hm hi hl (fun _ _ => 0) 2 (3 / 8) (by norm_num) (.inl rfl)
  rw [C76_small _ _ _ _ (by norm_num) (by norm_num) (by norm_num)] at h
  injection h with h
  rw [← h]
  norm_num [Nat.factorial]

/-- Two samples: `kstest` returns 1 in at least two of nine cases. -/
example {U : Fin 2 → Ω → ℝ} (hm : ∀ i, Measurable (U i)) (hi : iIndepFun U μ)
    (hl : ∀ i, μ.map (U i) = volume.restrict (Set.Icc 0 1)) (K : ℕ → ℝ → ℝ)
    (hK : ∀ d : ℝ, 0 ≤ d → (2 : ℕ) * d < 1 → pKsNew (fun _ _ => 0) 2 2 d = .ok (K 2 d)) :
    2 / 9 ≤ μ.real {ω | ∃ s, kstest K (List.ofFn fun i => U i ω) 2 = .ok (1, s)} := by
  refine le_trans ?_ (C82_atom (le_refl 2) hm hi hl _ 2 K hK)
  norm_num [Nat.factorial]

end Dh
