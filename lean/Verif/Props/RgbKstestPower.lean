import Verif.Props.RgbKstest
import Verif.Props.KuiperPower
/-
C144: the uneven generators that rgb_kstest_test always finds.
-/
namespace Dh
open Spec Filter Topology

namespace Spec

/-- How many of the deviates `u 0, …, u (n-1)` lie from `a` to `a + l`. -/
noncomputable def within (u : Nat → ℝ) (n : Nat) (a l : ℝ) : Nat := ((Finset.range n).filter fun i => a ≤ u i ∧ u i ≤ a + l).card

end Spec

theorem within_countP (u : Nat → ℝ) (n : Nat) (a l : ℝ) :
    (List.ofFn fun i : Fin n => u i).countP (fun x => decide (a ≤ x ∧ x ≤ a + l)) = Spec.within u n a l := by
  have e : (List.ofFn fun i : Fin n => u i) = (List.range n).map u := by
    rw [List.ofFn_eq_map, ← List.map_coe_finRange_eq_range, List.map_map]
    rfl
  rw [e, List.countP_map, List.countP_eq_length_filter, Spec.within, Finset.card_def, Finset.filter_val, Finset.range_val, Multiset.range,
    Multiset.filter_coe, Multiset.coe_card]
  congr 2

/-- For a large distance the p-value is not negative. -/
theorem ksFinish_nonneg (ksTest n : Nat) (hks : ksTest ≠ 2) (D p : ℝ) (hD : 7.3 ≤ n * D ^ 2) (h : ksFinish ksTest n D = .ok p) : 0 ≤ p := by
  rw [ksFinish] at h
  split at h
  · injection h with h
    rw [← h, ksAsymptotic]
    refine le_trans (mul_nonneg (by norm_num) (sub_nonneg.2 (Real.exp_le_exp.2 ?_))) (C75_bounds _).1
    nlinarith [sq_nonneg ((Real.sqrt n + 0.12 + 0.11 / Real.sqrt n) * D)]
  · have hs : D * D * n = n * D ^ 2 := by ring
    rw [C76_shortcut ksEasy ksTest n D hks (.inl (by rw [hs]; linarith)), hs] at h
    injection h with h
    rw [← h, ksEasy]
    exact mul_nonneg (by norm_num) (Real.exp_pos _).le

/-- **C144.** One sample of rgb_kstest_test, -k 0 or 1: if `k` of the `n` deviates lie in an interval of length `l`, with
`n ((k-1)/(n+1) - l)² ≥ 29.2`, the p-value is below 0.000001 and not negative, whatever the order of the deviates and wherever the interval is. -/
theorem C144_sample (ksTest : Nat) (hks : ksTest < 2) (K Q : Nat → ℝ → ℝ) (n : Nat) (hn : 2 ≤ n)
    (hK : ∀ d, 0 ≤ d → ksFinish ksTest n d = .ok (K n d)) (g : List ℝ) (hg : g.length = n) (u : Nat → ℝ) (a l : ℝ) (hl : 0 ≤ l) (k : Nat)
    (hk : k ≤ Spec.within u n a l) (hpos : l ≤ ((k : ℝ) - 1) / (n + 1)) (hbig : 29.2 ≤ n * (((k : ℝ) - 1) / (n + 1) - l) ^ 2) :
    ∃ p, rgbKstest K Q ksTest g u n = .ok p ∧ 0 ≤ p ∧ p < 1e-6 := by
  have hlen : (List.ofFn fun i : Fin n => u i).length = n := List.length_ofFn
  obtain ⟨s, D, h1, h2, h3⟩ := C126_distance K (List.ofFn fun i : Fin n => u i) (by omega) a l hl k (by rw [within_countP]; exact hk)
  rw [hlen] at h1 h3
  have h4 : ((((k : ℝ) - 1) / (n + 1) - l) / 2) ^ 2 ≤ D ^ 2 := pow_le_pow_left₀ (by linarith) h3 2
  have h5 := mul_le_mul_of_nonneg_left h4 (Nat.cast_nonneg (α := ℝ) n)
  have h6 : 7.3 ≤ n * D ^ 2 := by
    rw [div_pow] at h5
    linarith
  refine ⟨K n D, ?_, ksFinish_nonneg ksTest n (by omega) D _ h6 (hK D h2), ksFinish_small ksTest n (by omega) D _ (by omega) h2 h6 (hK D h2)⟩
  rw [rgbKstest, rgbKstestFill_ofFn u g n hg, Res.bind_ok, if_neg (by omega), h1]
  rfl

/-- **C144.** With -k 3 (Kuiper): `n ((k-1)/n - l)² ≥ 9.6721` is enough. -/
theorem C144_kuiper (ksTest : Nat) (hks : 3 ≤ ksTest) (K Q : Nat → ℝ → ℝ)
    (hQ : ∀ n v, 0 < v → Tendsto (fun q : Nat × Nat => qKsKuiper (kuiperX n v) n q.1 q.2) atTop (𝓝 (Q n v))) (n : Nat) (hn : 2 ≤ n)
    (g : List ℝ) (hg : g.length = n) (u : Nat → ℝ) (a l : ℝ) (hl : 0 ≤ l) (k : Nat) (hk : k ≤ Spec.within u n a l)
    (hpos : l ≤ ((k : ℝ) - 1) / n) (hbig : 9.6721 ≤ n * (((k : ℝ) - 1) / n - l) ^ 2) :
    ∃ p, rgbKstest K Q ksTest g u n = .ok p ∧ p < 1e-6 := by
  have hlen : (List.ofFn fun i : Fin n => u i).length = n := List.length_ofFn
  obtain ⟨p, s, h1, h2⟩ := C137_crowded Q hQ (List.ofFn fun i : Fin n => u i) (by omega) a l hl k (by rw [within_countP]; exact hk)
    (by rw [hlen]; exact hpos) (by rw [hlen]; exact hbig)
  rw [hlen] at h1
  refine ⟨p, ?_, h2⟩
  rw [rgbKstest, rgbKstestFill_ofFn u g n hg, Res.bind_ok, if_pos hks, h1]
  rfl

/-- **C144.** The whole test, -k 0 or 1, with 33 psamples or more: if the deviates of every psample are as uneven as that (the interval may be another
one in each), all p-values are at most 0.0004 and the final one is below 0.000001: FAILED. -/
theorem C144_run (ksTest : Nat) (hks : ksTest < 2) (K Q : Nat → ℝ → ℝ) (n : Nat) (hn : 2 ≤ n)
    (hK : ∀ m, 2 ≤ m → ∀ d, 0 ≤ d → ksFinish ksTest m d = .ok (K m d)) (ps : List ℝ) (hps : 33 ≤ ps.length) (g : Nat → List ℝ) (hg : ∀ i, (g i).length = n)
    (u : Nat → Nat → ℝ) (hp : ∀ i, ∀ h : i < ps.length, rgbKstest K Q ksTest (g i) (u i) n = .ok ps[i])
    (hu : ∀ i < ps.length, ∃ a l : ℝ, ∃ k : Nat, 0 ≤ l ∧ k ≤ Spec.within (u i) n a l ∧ l ≤ ((k : ℝ) - 1) / (n + 1) ∧
      29.2 ≤ n * (((k : ℝ) - 1) / (n + 1) - l) ^ 2) :
    Spec.FailsLow ps ∧ ∃ p s, kstest K ps ps.length = .ok (p, s) ∧ p < 1e-6 := by
  have h : ∀ p ∈ ps, 0 ≤ p ∧ p ≤ 0.0004 := by
    intro p hpm
    obtain ⟨i, hi, rfl⟩ := List.getElem_of_mem hpm
    obtain ⟨a, l, k, hl, hk, hpos, hbig⟩ := hu i hi
    obtain ⟨p, h1, h2, h3⟩ := C144_sample ksTest hks K Q n hn (hK n hn) (g i) (hg i) (u i) a l hl k hk hpos hbig
    rw [hp i hi] at h1
    injection h1 with h1
    rw [h1]
    exact ⟨h2, by norm_num at h3 ⊢; linarith⟩
  have hf := C137_low ps h
  exact ⟨hf, hf.2.1 hps ksTest (by omega) K (hK ps.length (by omega))⟩

/-- **C144.** The default of 10000 deviates: 5545 of them in one half of the unit interval are enough (an even generator is expected to put 5000
there). -/
theorem C144_default (ksTest : Nat) (hks : ksTest < 2) (K Q : Nat → ℝ → ℝ) (hK : ∀ d, 0 ≤ d → ksFinish ksTest 10000 d = .ok (K 10000 d))
    (g : List ℝ) (hg : g.length = 10000) (u : Nat → ℝ) (a : ℝ) (h : 5545 ≤ Spec.within u 10000 a (1 / 2)) :
    ∃ p, rgbKstest K Q ksTest g u 10000 = .ok p ∧ 0 ≤ p ∧ p < 1e-6 :=
  C144_sample ksTest hks K Q 10000 (by norm_num) hK g hg u a (1 / 2) (by norm_num) 5545 h (by norm_num) (by norm_num)

/-- Every other deviate is 1/4, the rest are spread evenly from 0 to 1: three quarters of the deviates lie in the lower half. -/
example : Spec.within (fun i => if i % 2 = 0 then 1 / 4 else (i : ℝ) / 8) 8 0 (1 / 2) = 6 := by
  have : ((Finset.range 8).filter fun i : ℕ => (0 : ℝ) ≤ (if i % 2 = 0 then 1 / 4 else (i : ℝ) / 8) ∧ (if i % 2 = 0 then (1 / 4 : ℝ) else (i : ℝ) / 8) ≤ 0 + 1 / 2) =
      {0, 1, 2, 3, 4, 6} := by
    ext i
    simp only [Finset.mem_filter, Finset.mem_range, Finset.mem_insert, Finset.mem_singleton]
    constructor
    · rintro ⟨h1, -, h3⟩
      interval_cases i <;> first | decide | (exfalso; norm_num at h3)
    · intro h
      rcases h with h | h | h | h | h | h <;> subst h <;> norm_num
  rw [Spec.within, this]
  rfl

/-- A generator that gives the same deviate always fails each sample of 10000. -/
example (K Q : Nat → ℝ → ℝ) (hK : ∀ d, 0 ≤ d → ksFinish 0 10000 d = .ok (K 10000 d)) (g : List ℝ) (hg : g.length = 10000) :
    ∃ p, rgbKstest K Q 0 g (fun _ => 0.3) 10000 = .ok p ∧ 0 ≤ p ∧ p < 1e-6 :=
  C144_default 0 (by norm_num) K Q hK g hg (fun _ => 0.3) 0 (by
    rw [Spec.within, Finset.filter_true_of_mem (fun i _ => by norm_num), Finset.card_range]
    norm_num)

end Dh
