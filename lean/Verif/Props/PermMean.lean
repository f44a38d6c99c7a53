import Verif.Model.PermStat
import Verif.Props.VtestMean
import Verif.Props.Perms
import Verif.Props.Operm5Mean
/-
C88: the permutations test on values in random order.
-/
set_option linter.unusedSimpArgs false
namespace Dh
open Spec

section
variable {sortIndex : List UInt → List Nat} (hs : SortIndexOk sortIndex) {k : Nat} {lookup : List (List Nat)} (hl : LookupOk k lookup)

/-- The tuple of `k` values. -/
def tupleOf (a : Fin k → Fin (2 ^ 32)) : List UInt := (List.range k).map fun i => if h : i < k then BitVec.ofFin (a ⟨i, h⟩) else 0

theorem tupleOf_length (a : Fin k → Fin (2 ^ 32)) : (tupleOf a).length = k := by simp [tupleOf]

theorem tupleOf_getD (a : Fin k → Fin (2 ^ 32)) {i : Nat} (h : i < k) : ((tupleOf a).getD i 0).toNat = (a ⟨i, h⟩).val := by
  rw [List.getD_eq_getElem _ _ (by rw [tupleOf_length]; exact h)]
  simp [tupleOf, h]

/-- A permutation as a tuple of values. -/
def rankTuple (hk : k ≤ 2 ^ 32) (L : List Nat) : Fin k → Fin (2 ^ 32) := fun i => if h : L.getD i 0 < 2 ^ 32 then ⟨L.getD i 0, h⟩ else ⟨0, by norm_num⟩

theorem rankTuple_permList (hk : k ≤ 2 ^ 32) (π : Equiv.Perm (Fin k)) (i : Fin k) : (rankTuple hk (permList π) i).val = (π i).val := by
  have e := permList_getD π i.val i.2
  have := (π i).2
  rw [rankTuple, dif_pos (by rw [e]; exact lt_of_lt_of_le this hk)]
  simp only [e]

include hs hl in
theorem permCell_order (hk : k ≤ 2 ^ 32) (a : Fin k → Fin (2 ^ 32)) (π : Equiv.Perm (Fin k)) (h : ∀ i j, a i ≤ a j ↔ π i ≤ π j) :
    permCell sortIndex lookup (tupleOf a) = permCell sortIndex lookup (tupleOf (rankTuple hk (permList π))) := by
  refine (C60_order hs hl _ _ (tupleOf_length _) (tupleOf_length _) ?_ ?_).2 ?_
  · intro i hi j hj e
    simp only [tupleOf_getD _ hi, tupleOf_getD _ hj] at e
    have e2 : a ⟨i, hi⟩ = a ⟨j, hj⟩ := Fin.ext e
    have := π.injective (le_antisymm ((h _ _).1 e2.le) ((h _ _).1 e2.ge))
    exact Fin.mk.inj_iff.1 this
  · intro i hi j hj e
    simp only [tupleOf_getD _ hi, tupleOf_getD _ hj, rankTuple_permList] at e
    exact Fin.mk.inj_iff.1 (π.injective (Fin.ext e))
  · intro i hi j hj
    simp only [tupleOf_getD _ hi, tupleOf_getD _ hj, rankTuple_permList]
    exact h ⟨i, hi⟩ ⟨j, hj⟩

include hs hl in
/-- Every cell belongs to exactly one permutation. -/
theorem permCell_bijective (hk : k ≤ 2 ^ 32) : Function.Bijective fun π : Equiv.Perm (Fin k) =>
    (⟨permCell sortIndex lookup (tupleOf (rankTuple hk (permList π))), C60_range hs hl _ (tupleOf_length _)⟩ : Fin k.factorial) := by
  rw [Fintype.bijective_iff_injective_and_card]
  refine ⟨fun π ρ e => ?_, by rw [Fintype.card_perm, Fintype.card_fin, Fintype.card_fin]⟩
  have hd : ∀ π : Equiv.Perm (Fin k), Distinct k fun i => ((tupleOf (rankTuple hk (permList π))).getD i 0).toNat := by
    intro π i hi j hj e
    simp only [tupleOf_getD _ hi, tupleOf_getD _ hj, rankTuple_permList] at e
    exact Fin.mk.inj_iff.1 (π.injective (Fin.ext e))
  have ho := (C60_order hs hl _ _ (tupleOf_length _) (tupleOf_length _) (hd π) (hd ρ)).1 (Fin.mk.inj_iff.1 e)
  have ho2 : ∀ i j, π i ≤ π j ↔ ρ i ≤ ρ j := by
    intro i j
    have := ho i.val i.2 j.val j.2
    simp only [tupleOf_getD _ i.2, tupleOf_getD _ j.2, rankTuple_permList] at this
    exact this
  have hm : StrictMono (π * ρ⁻¹) := by
    intro i j hij
    rw [Equiv.Perm.mul_apply, Equiv.Perm.mul_apply, ← not_le, ho2]
    simpa using hij
  have h1 : ∀ i, (π * ρ⁻¹) i = i := by
    have := Subsingleton.elim (hm.orderIsoOfSurjective _ (π * ρ⁻¹).surjective) (OrderIso.refl (Fin k))
    intro i
    exact congrFun (congrArg (fun e : Fin k ≃o Fin k => (e : Fin k → Fin k)) this) i
  exact mul_inv_eq_one.1 (Equiv.ext h1)

include hs hl in
theorem mean_permCell (hk : k ≤ 2 ^ 32) {c : Nat} (hc : c < k.factorial) :
    (mean fun π : Equiv.Perm (Fin k) => if permCell sortIndex lookup (tupleOf (rankTuple hk (permList π))) = c then (1 : ℝ) else 0) =
      ((1 / k.factorial : ℚ) : ℝ) := by
  have hb := permCell_bijective hs hl hk
  have h := mean_equiv (Equiv.ofBijective _ hb) fun d : Fin k.factorial => if d.val = c then (1 : ℝ) else 0
  refine Eq.trans ?_ (h.trans ?_)
  · rfl
  · rw [mean, Finset.sum_congr rfl fun d _ => if_congr (show d.val = c ↔ ⟨c, hc⟩ = d from ⟨fun e => Fin.ext e.symm, fun e => by rw [← e]⟩) rfl rfl,
      Finset.sum_ite_eq, if_pos (Finset.mem_univ _), Fintype.card_fin]
    push_cast
    rfl

/-- The cell of sample `t`. -/
def permTrial (sortIndex : List UInt → List Nat) (k : Nat) (lookup : List (List Nat)) (src : Src) (t : Nat) : Nat :=
  permCell sortIndex lookup ((List.range k).map fun i => src (k * t + i))

theorem permTrial_window {N : Nat} (x : Fin N → UInt) (σ : Equiv.Perm (Fin N)) {t : Nat} (h : k * t + k ≤ N) :
    permTrial sortIndex k lookup (permSrc x σ) t = permCell sortIndex lookup (tupleOf fun i => (x (σ (places k (k * t) h i))).toFin) := by
  rw [permTrial, tupleOf]
  congr 1
  refine List.map_congr_left fun i hi => ?_
  have hi := List.mem_range.1 hi
  rw [dif_pos hi, permSrc_window x σ h ⟨i, hi⟩]

theorem toFin_injective {N : Nat} {x : Fin N → UInt} (hx : Function.Injective x) : Function.Injective fun i => (x i).toFin :=
  fun _ _ e => hx (BitVec.toFin_inj.1 e)

include hs hl in
/-- **C88.** When the draws are different values in random order, the cells of the samples are uniformly distributed and any two of them
are independent. -/
theorem C88_trials (hk : k ≤ 2 ^ 32) {N n : Nat} (x : Fin N → UInt) (hx : Function.Injective x) (hN : k * n ≤ N) :
    PairTrials n k.factorial (fun t (σ : Equiv.Perm (Fin N)) => permCell sortIndex lookup ((List.range k).map fun i => orderSrc x σ (k * t + i)))
      fun _ => ((1 / k.factorial : ℚ) : ℝ) := by
  have hw : ∀ t < n, k * t + k ≤ N := fun t ht => by
    have : k * (t + 1) ≤ k * n := Nat.mul_le_mul_left k ht
    rw [Nat.mul_succ] at this
    omega
  refine ⟨fun t _ σ => C60_range hs hl _ (by simp), fun t ht c hc => ?_, fun s hs' t ht hst c hc d hd => ?_⟩
  · have h1 := mean_order (fun a => if permCell sortIndex lookup (tupleOf a) = c then (1 : ℝ) else 0)
      (fun L => if permCell sortIndex lookup (tupleOf (rankTuple hk L)) = c then (1 : ℝ) else 0)
      (fun a π hπ => by rw [permCell_order hs hl hk a π hπ]) _ (toFin_injective hx) (places k (k * t) (hw t ht))
    rw [mean_permCell hs hl hk hc] at h1
    rw [← h1]
    refine mean_congr fun σ => ?_
    have := permTrial_window (sortIndex := sortIndex) (lookup := lookup) x σ (hw t ht)
    rw [permTrial] at this
    change (if permCell sortIndex lookup ((List.range k).map fun i => permSrc x σ (k * t + i)) = c then (1 : ℝ) else 0) = _
    rw [this]
  · have h1 := mean_order_two
      (fun a b => if permCell sortIndex lookup (tupleOf a) = c ∧ permCell sortIndex lookup (tupleOf b) = d then (1 : ℝ) else 0)
      (fun L M => if permCell sortIndex lookup (tupleOf (rankTuple hk L)) = c ∧ permCell sortIndex lookup (tupleOf (rankTuple hk M)) = d then (1 : ℝ) else 0)
      (fun a b π ρ hπ hρ => by rw [permCell_order hs hl hk a π hπ, permCell_order hs hl hk b ρ hρ]) _ (toFin_injective hx)
      (places k (k * s) (hw s hs')) (places k (k * t) (hw t ht)) (fun i j e => by
        have e2 : k * s + i.val = k * t + j.val := congrArg Fin.val e
        have hi := i.2
        have hj := j.2
        rcases Nat.lt_or_gt_of_ne hst with h | h
        · have : k * (s + 1) ≤ k * t := Nat.mul_le_mul_left k h
          rw [Nat.mul_succ] at this
          omega
        · have : k * (t + 1) ≤ k * s := Nat.mul_le_mul_left k h
          rw [Nat.mul_succ] at this
          omega)
    have h2 : ∀ τ τ' : Equiv.Perm (Fin k), (if permCell sortIndex lookup (tupleOf (rankTuple hk (permList τ))) = c ∧
        permCell sortIndex lookup (tupleOf (rankTuple hk (permList τ'))) = d then (1 : ℝ) else 0) =
        (if permCell sortIndex lookup (tupleOf (rankTuple hk (permList τ))) = c then (1 : ℝ) else 0) *
          if permCell sortIndex lookup (tupleOf (rankTuple hk (permList τ'))) = d then (1 : ℝ) else 0 := by
      intro τ τ'
      by_cases a1 : permCell sortIndex lookup (tupleOf (rankTuple hk (permList τ))) = c <;>
        by_cases a2 : permCell sortIndex lookup (tupleOf (rankTuple hk (permList τ'))) = d <;> simp [a1, a2]
    simp only [h2, mean_mul_left, mean_permCell hs hl hk hd] at h1
    have h3 : ∀ τ : Equiv.Perm (Fin k), (if permCell sortIndex lookup (tupleOf (rankTuple hk (permList τ))) = c then (1 : ℝ) else 0) * ((1 / k.factorial : ℚ) : ℝ) =
        ((1 / k.factorial : ℚ) : ℝ) * (if permCell sortIndex lookup (tupleOf (rankTuple hk (permList τ))) = c then (1 : ℝ) else 0) := fun τ => mul_comm _ _
    rw [mean_congr h3, mean_mul_left, mean_permCell hs hl hk hc] at h1
    rw [← h1]
    refine mean_congr fun σ => ?_
    have a1 := permTrial_window (sortIndex := sortIndex) (lookup := lookup) x σ (hw t ht)
    have a2 := permTrial_window (sortIndex := sortIndex) (lookup := lookup) x σ (hw s hs')
    rw [permTrial] at a1 a2
    change (if permCell sortIndex lookup ((List.range k).map fun i => permSrc x σ (k * s + i)) = c ∧
      permCell sortIndex lookup ((List.range k).map fun i => permSrc x σ (k * t + i)) = d then (1 : ℝ) else 0) = _
    rw [a1, a2]

end

/-- The evaluated vector holds the numbers of samples with each order. -/
theorem permStat_eq {sortIndex : List UInt → List Nat} (hs : SortIndexOk sortIndex) {lookup : Nat → List (List Nat)}
    (hl : ∀ k, LookupOk k (lookup k)) (ntuple k : Nat) (hk : k = if ntuple < 2 then 5 else ntuple) (hk12 : k ≤ 12) (src : Src) (n : Nat) :
    rgbPermutationsStat ntuple sortIndex lookup src n = vtestEval { vtestCreate k.factorial with
      x := (List.range k.factorial).map (fun c => (((List.range n).countP fun t =>
        decide (permCell sortIndex (lookup k) ((List.range k).map fun i => src (k * t + i)) = c) : Nat) : ℚ))
      y := (List.range k.factorial).map (fun _ => (n : ℚ) * (1 / k.factorial)) } := by
  obtain ⟨x, h1, h2, -, h4⟩ := C60_tally hs hl ntuple k hk hk12 src n
  rw [rgbPermutationsStat, h1, Res.bind_ok]
  simp only [← hk]
  congr 2
  · refine List.ext_getElem (by simp [h2]) fun c hc hc' => ?_
    have hcx : c < x.length := by simpa using hc
    simp only [List.getElem_map, List.getElem_range]
    rw [← h4 c, List.getD_eq_getElem _ _ hcx]
  · rw [List.map_const', List.length_range]
    congr 1
    ring

/-- **C88.** On different values in random order, with at least five expected samples per permutation, the statistic of
`rgb_permutations` has as mean its number of degrees of freedom, `k! - 1`. -/
theorem C88_mean {sortIndex : List UInt → List Nat} (hs : SortIndexOk sortIndex) {lookup : Nat → List (List Nat)}
    (hl : ∀ k, LookupOk k (lookup k)) (ntuple k : Nat) (hk : k = if ntuple < 2 then 5 else ntuple) (hk12 : k ≤ 12)
    {N n : Nat} (x : Fin N → UInt) (hx : Function.Injective x) (hN : k * n ≤ N) (hn : 5 * k.factorial ≤ n) :
    ∃ w : Equiv.Perm (Fin N) → Vtest, (∀ σ, rgbPermutationsStat ntuple sortIndex lookup (orderSrc x σ) n = .ok (w σ)) ∧
      (mean fun σ => ((w σ).chisq : ℝ)) = k.factorial - 1 ∧ ∀ σ, (w σ).ndof = k.factorial - 1 := by
  have hf := k.factorial_pos
  have hfq : (0 : ℚ) < k.factorial := by exact_mod_cast hf
  have ht := C88_trials hs (hl k) (by omega) x hx hN
  have hbig : 5 ≤ (n : ℚ) * (1 / k.factorial) := by
    have : (5 : ℚ) * k.factorial ≤ n := by exact_mod_cast hn
    rw [mul_one_div, le_div_iff₀ hfq]
    exact this
  obtain ⟨w, h1, h2, h3⟩ := C87_vtest_mean ht (by omega) (fun _ => 1 / k.factorial)
  have hpos : (0 : ℝ) < k.factorial := by exact_mod_cast hf
  refine ⟨w, fun σ => ?_, ?_, fun σ => ?_⟩
  · rw [permStat_eq hs hl ntuple k hk hk12, ← h1 σ]
    rfl
  · rw [h2]
    simp only [hbig, not_true, Finset.filter_true, Finset.filter_false, Finset.sum_empty, mul_zero]
    rw [if_neg (by norm_num), Finset.sum_const, Finset.card_range, nsmul_eq_mul, cellMean_self]
    · push_cast
      field_simp
      ring
    · push_cast
      positivity
  · rw [h3 σ]
    simp only [hbig, not_true, Finset.filter_true, Finset.filter_false, Finset.sum_empty, mul_zero, Finset.card_range]
    rw [if_neg (by norm_num)]
    have : k.factorial ≤ Nat.factorial 12 := Nat.factorial_le hk12
    have h12 : Nat.factorial 12 = 479001600 := by decide +kernel
    omega

/-- **C88, failure.** With fewer samples all permutations are pooled into one cell: the statistic is 0, whatever the generator does. -/
theorem C88_small {sortIndex : List UInt → List Nat} (hs : SortIndexOk sortIndex) {lookup : Nat → List (List Nat)}
    (hl : ∀ k, LookupOk k (lookup k)) (ntuple k : Nat) (hk : k = if ntuple < 2 then 5 else ntuple) (hk12 : k ≤ 12)
    (src : Src) (n : Nat) (hn : n < 5 * k.factorial) :
    ∃ w, rgbPermutationsStat ntuple sortIndex lookup src n = .ok w ∧ w.chisq = 0 ∧ w.ndof = if 5 ≤ n then 0 else 4294967295 := by
  have hf := k.factorial_pos
  have hfq : (0 : ℚ) < k.factorial := by exact_mod_cast hf
  obtain ⟨x, g1, g2, g3, g4⟩ := C60_tally hs hl ntuple k hk hk12 src n
  have hsmall : ¬ 5 ≤ (n : ℚ) * (1 / k.factorial) := by
    have : (n : ℚ) < 5 * k.factorial := by exact_mod_cast hn
    rw [mul_one_div, le_div_iff₀ hfq]
    linarith
  rw [permStat_eq hs hl ntuple k hk hk12]
  set xs := (List.range k.factorial).map (fun c => (((List.range n).countP fun t =>
        decide (permCell sortIndex (lookup k) ((List.range k).map fun i => src (k * t + i)) = c) : Nat) : ℚ)) with hxs
  have hxs' : xs = x.map (fun c : Nat => (c : ℚ)) := by
    refine List.ext_getElem (by simp [hxs, g2]) fun c hc hc' => ?_
    have hcx : c < x.length := by simpa using hc'
    simp only [hxs, List.getElem_map, List.getElem_range]
    rw [← g4 c, List.getD_eq_getElem _ _ hcx]
  have hlen : xs.length = k.factorial := by simp [hxs]
  obtain ⟨w, h1, h2, h3⟩ := C16_created xs ((List.range k.factorial).map fun _ => (n : ℚ) * (1 / k.factorial)) (by simp [hlen])
  rw [hlen] at h1
  refine ⟨w, h1, ?_⟩
  have hy : ∀ c ∈ xs.zip ((List.range k.factorial).map fun _ => (n : ℚ) * (1 / k.factorial)), ¬ 5 ≤ c.2 := by
    intro c hc
    have := (List.of_mem_zip hc).2
    obtain ⟨i, -, hi⟩ := List.mem_map.1 this
    rw [← hi]
    exact hsmall
  have hb : bigCells 5 (xs.zip ((List.range k.factorial).map fun _ => (n : ℚ) * (1 / k.factorial))) = [] := by
    rw [bigCells, List.filter_eq_nil_iff]
    intro c hc
    simpa using hy c hc
  have hc : smallCells 5 (xs.zip ((List.range k.factorial).map fun _ => (n : ℚ) * (1 / k.factorial))) =
      xs.zip ((List.range k.factorial).map fun _ => (n : ℚ) * (1 / k.factorial)) := by
    rw [smallCells, List.filter_eq_self]
    intro c hc
    simpa using hy c hc
  have hp : pooled (xs.zip ((List.range k.factorial).map fun _ => (n : ℚ) * (1 / k.factorial))) = ((n : ℚ), (n : ℚ)) := by
    rw [pooled, List.map_fst_zip (by simp [hlen]), List.map_snd_zip (by simp [hlen])]
    congr 1
    · rw [hxs', ← Nat.cast_list_sum, g3]
    · rw [List.map_const', List.length_range, List.sum_replicate, nsmul_eq_mul]
      field_simp
  have hne : xs.zip ((List.range k.factorial).map fun _ => (n : ℚ) * (1 / k.factorial)) ≠ [] := by
    intro h
    have := congrArg List.length h
    simp [hlen] at this
    omega
  rw [h2, h3, usedCells, hb, hc, hp]
  by_cases h5 : 5 ≤ n
  · rw [if_pos ⟨hne, by simpa using (by exact_mod_cast h5 : (5 : ℚ) ≤ n)⟩, if_pos h5]
    simp [pearson]
  · rw [if_neg (fun h => h5 (by have : (5 : ℚ) ≤ n := h.2; exact_mod_cast this)), if_neg h5]
    simp

/-- A thousand samples of five out of the first 5000 numbers: the mean is 119.  With eight numbers per sample the default number of
samples, 100000, is too small. -/
example : (∃ w : Equiv.Perm (Fin 5000) → Vtest,
      (∀ σ, rgbPermutationsStat 5 mergeIndex (fun k => (List.range k).permutations) (orderSrc (fun i => BitVec.ofNat 32 i.val) σ) 1000 = .ok (w σ)) ∧
      (mean fun σ => ((w σ).chisq : ℝ)) = 119) ∧
    ∀ src, ∃ w, rgbPermutationsStat 8 mergeIndex (fun k => (List.range k).permutations) src 100000 = .ok w ∧ w.chisq = 0 ∧ w.ndof = 0 := by
  have h5 : Nat.factorial 5 = 120 := by decide
  have h8 : Nat.factorial 8 = 40320 := by decide +kernel
  constructor
  · obtain ⟨w, h1, h2, -⟩ := C88_mean mergeIndex_ok permutations_ok 5 5 rfl (by omega) (N := 5000) (n := 1000) (fun i => BitVec.ofNat 32 i.val)
      (fun i j e => by
        have := congrArg BitVec.toNat e
        simp only [BitVec.toNat_ofNat] at this
        rw [Nat.mod_eq_of_lt (by omega), Nat.mod_eq_of_lt (by omega)] at this
        exact Fin.ext this) (by omega) (by omega)
    refine ⟨w, h1, ?_⟩
    rw [h2, h5]
    norm_num
  · intro src
    obtain ⟨w, h1, h2, h3⟩ := C88_small mergeIndex_ok permutations_ok 8 8 rfl (by omega) src 100000 (by omega)
    exact ⟨w, h1, h2, by rw [h3]; rfl⟩

end Dh
