import Verif.Props.BirthTest
import Verif.Props.Operm5Power
/-
C154: what diehard_birthdays always finds.
-/
namespace Dh
open Spec

namespace Spec

/-- Sample `t` of 512 birthdays. -/
def birthdaysOf (src : Src) (t : Nat) : List UInt := (List.range 512).map fun i => src (512 * t + i)

end Spec

theorem exp_neg_two : 0.1353 < Real.exp (-2) ∧ Real.exp (-2) < 0.1354 := by
  have h1 := Real.exp_one_gt_d9
  have h2 := Real.exp_one_lt_d9
  have h3 : Real.exp (-2) = (Real.exp 1 * Real.exp 1)⁻¹ := by rw [← Real.exp_add, Real.exp_neg]; norm_num
  constructor
  · rw [h3, lt_inv_comm₀ (by norm_num) (by positivity)]
    nlinarith
  · rw [h3, inv_lt_comm₀ (by positivity) (by norm_num)]
    nlinarith

theorem firstSmall_default : FirstSmall 100 2 5 := by
  obtain ⟨h5, h4⟩ := exp_neg_two
  refine ⟨by omega, ?_, fun j h6 h7 => ?_⟩
  · rw [birthExpected]
    norm_num [Nat.factorial]
    linarith
  · have : j = 1 ∨ j = 2 ∨ j = 3 ∨ j = 4 := by omega
    rcases this with rfl | rfl | rfl | rfl <;> rw [birthExpected] <;> norm_num [Nat.factorial] <;> linarith

/-- The default statistic: 100 samples, cells 0 to 5, mean 2. -/
theorem birth_default (e0 : Nat → List ℝ) (he : ∀ k, (e0 k).length = k) (r : Nat) (hr : 24 ≤ r) (src : Src) (ks : Nat → Nat)
    (hks : ∀ t < 100, birthSample (birthdaysOf src t) = .ok (ks t)) (fuel : Nat) (hf : 5 ≤ fuel) :
    diehardBirthdays gammaTail e0 fuel r src 100 = .ok (gammaTail (5 / 2)
      ((∑ c ∈ Finset.range 6, ((((List.range 100).countP fun t => decide (ks t = c)) : ℝ) - birthExpected 100 2 c) ^ 2 / birthExpected 100 2 c) / 2)) := by
  obtain ⟨k, hk, h⟩ := C124_diehard gammaTail e0 he r src 100 ks hks
  have hl : (2 ^ 27 / 2 ^ (min 24 r + 2) : ℝ) = 2 := by
    rw [Nat.min_eq_left hr]
    norm_num
  rw [hl] at hk h
  have h5 := firstSmall_default
  have hk5 : k = 5 := by
    rcases Nat.lt_trichotomy k 5 with hlt | heq | hgt
    · have := h5.2.2 k hk.1 hlt
      linarith [hk.2.1]
    · exact heq
    · have := hk.2.2 5 (by omega) hgt
      linarith [h5.2.1]
  rw [hk5] at h
  have := h fuel hf
  rw [this]
  norm_num

theorem birthExpected_values : 13.53 < birthExpected 100 2 0 ∧ birthExpected 100 2 0 < 13.54 ∧ 27.06 < birthExpected 100 2 1 ∧ birthExpected 100 2 1 < 27.08 ∧
    27.06 < birthExpected 100 2 2 ∧ birthExpected 100 2 2 < 27.08 ∧ 18 < birthExpected 100 2 3 ∧ birthExpected 100 2 3 < 18.06 ∧
    9 < birthExpected 100 2 4 ∧ birthExpected 100 2 4 < 9.03 ∧ 3.6 < birthExpected 100 2 5 ∧ birthExpected 100 2 5 < 3.62 := by
  obtain ⟨h5, h4⟩ := exp_neg_two
  simp only [birthExpected]
  norm_num [Nat.factorial]
  refine ⟨?_, ?_, ?_, ?_, ?_, ?_, ?_, ?_, ?_, ?_, ?_, ?_⟩ <;> linarith

theorem birthExpected_bounds (c : Nat) (hc : c < 6) : 3.6 < birthExpected 100 2 c ∧ birthExpected 100 2 c < 27.08 := by
  obtain ⟨a1, a2, b1, b2, c1, c2, d1, d2, e1, e2, f1, f2⟩ := birthExpected_values
  have : c = 0 ∨ c = 1 ∨ c = 2 ∨ c = 3 ∨ c = 4 ∨ c = 5 := by omega
  rcases this with rfl | rfl | rfl | rfl | rfl | rfl <;> constructor <;> linarith

/-- **C154, one class too full.**  A default run (100 samples, 24 bits or more) of diehard_birthdays fails if in every run 60 samples or
more have the same number of repeated spacings, 0 to 5; and it fails if in every run no sample has 1 or 2. -/
theorem C154_cells (e0 : Nat → List ℝ) (he : ∀ k, (e0 k).length = k) (r : Nat) (hr : 24 ≤ r) (fuel : Nat) (hf : 5 ≤ fuel) (srcs : List Src)
    (ks : Src → Nat → Nat) (hks : ∀ src ∈ srcs, ∀ t < 100, birthSample (birthdaysOf src t) = .ok (ks src t))
    (h : ∀ src ∈ srcs, (∃ c, c < 6 ∧ 60 ≤ (List.range 100).countP fun t => decide (ks src t = c)) ∨ ∀ t < 100, ks src t ≠ 1 ∧ ks src t ≠ 2) :
    ∃ ps : List ℝ, srcs.map (fun src => diehardBirthdays gammaTail e0 fuel r src 100) = ps.map .ok ∧ FailsLow ps := by
  obtain ⟨ps, h1, h2⟩ := runs_exist (fun src => diehardBirthdays gammaTail e0 fuel r src 100) (fun p => 0 ≤ p ∧ p ≤ 0.0004) srcs fun src hs => by
    refine ⟨_, birth_default e0 he r hr src (ks src) (hks src hs) fuel hf, gammaTail_low (c := 39) (by norm_num) _ (by norm_num) ?_ (by norm_num)⟩
    have hnn : ∀ c ∈ Finset.range 6, 0 ≤ ((((List.range 100).countP fun t => decide (ks src t = c)) : ℝ) - birthExpected 100 2 c) ^ 2 / birthExpected 100 2 c :=
      fun c hc => div_nonneg (sq_nonneg _) (by linarith [(birthExpected_bounds c (Finset.mem_range.1 hc)).1])
    rcases h src hs with ⟨c, hc, h60⟩ | h12
    · refine le_trans ?_ (Finset.single_le_sum hnn (Finset.mem_range.2 hc))
      obtain ⟨g1, g2⟩ := birthExpected_bounds c hc
      have h60' : (60 : ℝ) ≤ ((List.range 100).countP fun t => decide (ks src t = c) : ℕ) := by exact_mod_cast h60
      rw [le_div_iff₀ (by linarith)]
      nlinarith
    · have hz : ∀ c, c = 1 ∨ c = 2 → (List.range 100).countP (fun t => decide (ks src t = c)) = 0 := by
        intro c hc
        rw [List.countP_eq_zero]
        intro t ht e
        have := h12 t (List.mem_range.1 ht)
        have := of_decide_eq_true e
        omega
      have hsub : ({1, 2} : Finset Nat) ⊆ Finset.range 6 := by decide
      refine le_trans ?_ (Finset.sum_le_sum_of_subset_of_nonneg hsub fun c hc _ => hnn c hc)
      obtain ⟨a1, a2, b1, b2, c1, c2, -⟩ := birthExpected_values
      rw [Finset.sum_pair (by decide), hz 1 (.inl rfl), hz 2 (.inr rfl)]
      have hx : ∀ x : ℝ, 27.06 < x → (((0 : ℕ) : ℝ) - x) ^ 2 / x = x := fun x hx => by
        have : x ≠ 0 := by linarith
        field_simp
        push_cast
        ring
      rw [hx _ b1, hx _ c1]
      linarith
  exact ⟨ps, h1, C137_low ps h2⟩

/-- **C154, equal samples.**  It fails on every generator that gives the same number of repeated spacings in all samples of a run; in
particular on one whose numbers have a period that divides 512, if the loop stays within the array in the sample that recurs. -/
theorem C154_same (e0 : Nat → List ℝ) (he : ∀ k, (e0 k).length = k) (r : Nat) (hr : 24 ≤ r) (fuel : Nat) (hf : 5 ≤ fuel) (srcs : List Src)
    (h : ∀ src ∈ srcs, ∃ k, ∀ t < 100, birthSample (birthdaysOf src t) = .ok k) :
    ∃ ps : List ℝ, srcs.map (fun src => diehardBirthdays gammaTail e0 fuel r src 100) = ps.map .ok ∧ FailsLow ps := by
  classical
  choose! k hk using h
  refine C154_cells e0 he r hr fuel hf srcs (fun src _ => k src) hk fun src hs => ?_
  by_cases hc : k src < 6
  · left
    refine ⟨k src, hc, ?_⟩
    simp
  · right
    intro t _
    omega

theorem C154_period (e0 : Nat → List ℝ) (he : ∀ k, (e0 k).length = k) (r : Nat) (hr : 24 ≤ r) (fuel : Nat) (hf : 5 ≤ fuel) (srcs : List Src) (T : Nat)
    (hT : T ∣ 512) (h : ∀ src ∈ srcs, (∀ i, src (i + T) = src i) ∧ ∃ k, birthSample (birthdaysOf src 0) = .ok k) :
    ∃ ps : List ℝ, srcs.map (fun src => diehardBirthdays gammaTail e0 fuel r src 100) = ps.map .ok ∧ FailsLow ps := by
  refine C154_same e0 he r hr fuel hf srcs fun src hs => ?_
  obtain ⟨hper, k, hk⟩ := h src hs
  refine ⟨k, fun t _ => ?_⟩
  suffices e : birthdaysOf src t = birthdaysOf src 0 by rw [e]; exact hk
  rw [birthdaysOf, birthdaysOf]
  refine List.map_congr_left fun i _ => ?_
  obtain ⟨q, hq⟩ := hT
  have : ∀ m i, src (i + T * m) = src i := by
    intro m
    induction m with
    | zero => exact fun _ => rfl
    | succ m ih => intro i; rw [show i + T * (m + 1) = i + T * m + T by ring, hper, ih]
  rw [show 512 * t + i = i + T * (q * t) by rw [hq]; ring, this, Nat.mul_zero, Nat.zero_add]

/-- The numbers of C124 that pass with a generator of 22 bits fail with one of 24 bits or more. -/
example (e0 : Nat → List ℝ) (he : ∀ k, (e0 k).length = k) :
    ∃ ps : List ℝ, (List.replicate 100 birthBad).map (fun src => diehardBirthdays gammaTail e0 100 32 src 100) = ps.map .ok ∧ FailsLow ps :=
  C154_same e0 he 32 (by omega) 100 (by omega) _ fun src hs => ⟨2, fun t _ => by rw [List.eq_of_mem_replicate hs]; exact birthBad_sample t⟩

/-- They have period 512. -/
example (e0 : Nat → List ℝ) (he : ∀ k, (e0 k).length = k) :
    ∃ ps : List ℝ, (List.replicate 50 birthBad).map (fun src => diehardBirthdays gammaTail e0 100 24 src 100) = ps.map .ok ∧ FailsLow ps :=
  C154_period e0 he 24 (by omega) 100 (by omega) _ 512 (dvd_refl _) fun src hs => by
    rw [List.eq_of_mem_replicate hs]
    exact ⟨fun i => by rw [birthBad, birthBad, Nat.add_mod_right], 2, birthBad_sample 0⟩

end Dh
