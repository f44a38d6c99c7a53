import Mathlib.Analysis.SpecialFunctions.Gaussian.PoissonSummation
import Mathlib.Analysis.Calculus.SmoothSeries
import Mathlib.Analysis.Calculus.Deriv.MeanValue
import Mathlib.Analysis.Normed.Group.Tannery
import Mathlib.Analysis.Real.Pi.Bounds
/-
The series of Kuiper's limit distribution, by differentiating Jacobi's theta function.
-/
namespace Dh
namespace Ku
open Filter Topology Real
noncomputable section

theorem summable_gauss (k : Nat) {c : ℝ} (hc : 0 < c) : Summable fun n : ℕ => ((n : ℝ) + 1) ^ k * exp (-(c * ((n : ℝ) + 1) ^ 2)) := by
  have h := (summable_nat_add_iff 1).2 (Real.summable_pow_mul_exp_neg_nat_mul k hc)
  refine Summable.of_nonneg_of_le (fun n => by positivity) (fun n => ?_) h
  push_cast
  refine mul_le_mul_of_nonneg_left (exp_le_exp.2 ?_) (by positivity)
  have : (0 : ℝ) ≤ n := n.cast_nonneg
  nlinarith [mul_nonneg hc.le (mul_nonneg this (by linarith : (0 : ℝ) ≤ (n : ℝ) + 1))]

def a0 (n : ℕ) (x : ℝ) : ℝ := x * exp (-2 * ((n : ℝ) + 1) ^ 2 * x ^ 2)
def a1 (n : ℕ) (x : ℝ) : ℝ := (1 - 4 * ((n : ℝ) + 1) ^ 2 * x ^ 2) * exp (-2 * ((n : ℝ) + 1) ^ 2 * x ^ 2)
def a2 (n : ℕ) (x : ℝ) : ℝ := 4 * x * (((n : ℝ) + 1) ^ 2 * (4 * ((n : ℝ) + 1) ^ 2 * x ^ 2 - 3)) * exp (-2 * ((n : ℝ) + 1) ^ 2 * x ^ 2)
def b0 (n : ℕ) (x : ℝ) : ℝ := exp (-(π ^ 2 * ((n : ℝ) + 1) ^ 2 / 2 * (x ^ 2)⁻¹))
def b1 (n : ℕ) (x : ℝ) : ℝ := π ^ 2 * ((n : ℝ) + 1) ^ 2 * (x ^ 3)⁻¹ * exp (-(π ^ 2 * ((n : ℝ) + 1) ^ 2 / 2 * (x ^ 2)⁻¹))
def b2 (n : ℕ) (x : ℝ) : ℝ := (π ^ 4 * ((n : ℝ) + 1) ^ 4 * (x ^ 6)⁻¹ - 3 * π ^ 2 * ((n : ℝ) + 1) ^ 2 * (x ^ 4)⁻¹) *
  exp (-(π ^ 2 * ((n : ℝ) + 1) ^ 2 / 2 * (x ^ 2)⁻¹))

theorem a0_deriv (n : ℕ) (x : ℝ) : HasDerivAt (a0 n) (a1 n x) x := by
  have h1 : HasDerivAt (fun x : ℝ => -2 * ((n : ℝ) + 1) ^ 2 * x ^ 2) (-2 * ((n : ℝ) + 1) ^ 2 * (2 * x)) x := by
    exact ((hasDerivAt_pow 2 x).const_mul (-2 * ((n : ℝ) + 1) ^ 2)).congr_deriv (by simp)
  refine ((hasDerivAt_id x).mul h1.exp).congr_deriv ?_
  simp only [a1, id]
  ring

theorem a1_deriv (n : ℕ) (x : ℝ) : HasDerivAt (a1 n) (a2 n x) x := by
  have h1 : HasDerivAt (fun x : ℝ => -2 * ((n : ℝ) + 1) ^ 2 * x ^ 2) (-2 * ((n : ℝ) + 1) ^ 2 * (2 * x)) x := by
    exact ((hasDerivAt_pow 2 x).const_mul (-2 * ((n : ℝ) + 1) ^ 2)).congr_deriv (by simp)
  have h2 : HasDerivAt (fun x : ℝ => 1 - 4 * ((n : ℝ) + 1) ^ 2 * x ^ 2) (-(4 * ((n : ℝ) + 1) ^ 2 * (2 * x))) x := by
    simpa using ((hasDerivAt_pow 2 x).const_mul (4 * ((n : ℝ) + 1) ^ 2)).const_sub 1
  refine (h2.mul h1.exp).congr_deriv ?_
  simp only [a2]
  ring

theorem inv_deriv (k : Nat) {x : ℝ} (hx : 0 < x) : HasDerivAt (fun x : ℝ => (x ^ (k + 1))⁻¹) (-((k + 1 : ℝ) * (x ^ (k + 2))⁻¹)) x := by
  have h := (hasDerivAt_pow (k + 1) x).inv (pow_ne_zero _ hx.ne')
  refine h.congr_deriv ?_
  have : x ≠ 0 := hx.ne'
  rw [Nat.add_sub_cancel]
  push_cast
  field_simp
  ring

theorem b0_deriv (n : ℕ) {x : ℝ} (hx : 0 < x) : HasDerivAt (b0 n) (b1 n x) x := by
  have h1 := ((inv_deriv 1 hx).const_mul (π ^ 2 * ((n : ℝ) + 1) ^ 2 / 2)).neg
  refine h1.exp.congr_deriv ?_
  simp only [b1, Pi.neg_apply]
  push_cast
  ring

theorem b1_deriv (n : ℕ) {x : ℝ} (hx : 0 < x) : HasDerivAt (b1 n) (b2 n x) x := by
  have h1 := b0_deriv n hx
  have h2 := (inv_deriv 2 hx).const_mul (π ^ 2 * ((n : ℝ) + 1) ^ 2)
  refine (h2.mul h1).congr_deriv ?_
  have : x ≠ 0 := hx.ne'
  simp only [b0, b1, b2]
  push_cast
  field_simp
  ring

def A0 (x : ℝ) : ℝ := ∑' n, a0 n x
def A1 (x : ℝ) : ℝ := ∑' n, a1 n x
def A2 (x : ℝ) : ℝ := ∑' n, a2 n x
def B0 (x : ℝ) : ℝ := ∑' n, b0 n x
def B1 (x : ℝ) : ℝ := ∑' n, b1 n x
def B2 (x : ℝ) : ℝ := ∑' n, b2 n x

/-- A common bound for the first series near a point. -/
theorem a_bound {l u : ℝ} (hl : 0 < l) : ∃ w : ℕ → ℝ, Summable w ∧ ∀ n x, x ∈ Set.Ioo l u → |a0 n x| ≤ w n ∧ |a1 n x| ≤ w n ∧ |a2 n x| ≤ w n := by
  have hc : 0 < 2 * l ^ 2 := by positivity
  refine ⟨fun n => u * (((n : ℝ) + 1) ^ 0 * exp (-(2 * l ^ 2 * ((n : ℝ) + 1) ^ 2))) + ((1 * (((n : ℝ) + 1) ^ 0 * exp (-(2 * l ^ 2 * ((n : ℝ) + 1) ^ 2))) +
    4 * u ^ 2 * (((n : ℝ) + 1) ^ 2 * exp (-(2 * l ^ 2 * ((n : ℝ) + 1) ^ 2)))) +
    (16 * u ^ 3 * (((n : ℝ) + 1) ^ 4 * exp (-(2 * l ^ 2 * ((n : ℝ) + 1) ^ 2))) + 12 * u * (((n : ℝ) + 1) ^ 2 * exp (-(2 * l ^ 2 * ((n : ℝ) + 1) ^ 2))))),
    ((summable_gauss 0 hc).mul_left _).add ((((summable_gauss 0 hc).mul_left _).add ((summable_gauss 2 hc).mul_left _)).add
      (((summable_gauss 4 hc).mul_left _).add ((summable_gauss 2 hc).mul_left _))), fun n x hx => ?_⟩
  have hx0 : 0 < x := hl.trans hx.1
  have hu : 0 < u := hx0.trans hx.2
  set N : ℝ := (n : ℝ) + 1 with hN
  have hN0 : 0 < N := by positivity
  set E := exp (-(2 * l ^ 2 * N ^ 2)) with hE
  have hE0 : 0 < E := exp_pos _
  have he : exp (-2 * N ^ 2 * x ^ 2) ≤ E := by
    refine exp_le_exp.2 ?_
    have : l ^ 2 ≤ x ^ 2 := pow_le_pow_left₀ hl.le hx.1.le 2
    nlinarith [mul_le_mul_of_nonneg_left this (by positivity : 0 ≤ 2 * N ^ 2)]
  have hep := exp_pos (-2 * N ^ 2 * x ^ 2)
  have hx2 : x ^ 2 ≤ u ^ 2 := pow_le_pow_left₀ hx0.le hx.2.le 2
  have hx3 : x ^ 3 ≤ u ^ 3 := pow_le_pow_left₀ hx0.le hx.2.le 3
  have t0 : 0 ≤ u * (N ^ 0 * E) := by positivity
  have t1 : 0 ≤ 1 * (N ^ 0 * E) + 4 * u ^ 2 * (N ^ 2 * E) := by positivity
  have t2 : 0 ≤ 16 * u ^ 3 * (N ^ 4 * E) + 12 * u * (N ^ 2 * E) := by positivity
  refine ⟨?_, ?_, ?_⟩
  · have : |a0 n x| ≤ u * (N ^ 0 * E) := by
      rw [a0, abs_mul, abs_of_pos hx0, abs_of_pos hep, pow_zero, one_mul]
      exact mul_le_mul hx.2.le he hep.le hu.le
    linarith
  · have : |a1 n x| ≤ 1 * (N ^ 0 * E) + 4 * u ^ 2 * (N ^ 2 * E) := by
      rw [a1, abs_mul, abs_of_pos hep]
      have h1 : |1 - 4 * N ^ 2 * x ^ 2| ≤ 1 + 4 * N ^ 2 * u ^ 2 := by
        rw [abs_le]
        constructor <;> nlinarith [mul_le_mul_of_nonneg_left hx2 (by positivity : 0 ≤ 4 * N ^ 2), (by positivity : 0 ≤ 4 * N ^ 2 * x ^ 2)]
      refine (mul_le_mul h1 he hep.le (by positivity)).trans (le_of_eq (by ring))
    linarith
  · have : |a2 n x| ≤ 16 * u ^ 3 * (N ^ 4 * E) + 12 * u * (N ^ 2 * E) := by
      rw [a2, abs_mul, abs_of_pos hep]
      have h1 : |4 * x * (N ^ 2 * (4 * N ^ 2 * x ^ 2 - 3))| ≤ 16 * N ^ 4 * u ^ 3 + 12 * u * N ^ 2 := by
        have k1 := mul_le_mul_of_nonneg_left hx3 (by positivity : 0 ≤ 16 * N ^ 4)
        have k2 := mul_le_mul_of_nonneg_left hx.2.le (by positivity : 0 ≤ 12 * N ^ 2)
        have k3 : 0 ≤ 16 * N ^ 4 * x ^ 3 := by positivity
        have k4 : 0 ≤ 12 * N ^ 2 * x := by positivity
        rw [abs_le]
        constructor <;> nlinarith
      refine (mul_le_mul h1 he hep.le (by positivity)).trans (le_of_eq (by ring))
    linarith

theorem b_bound {l u : ℝ} (hl : 0 < l) (hlu : l < u) :
    ∃ w : ℕ → ℝ, Summable w ∧ ∀ n x, x ∈ Set.Ioo l u → |b0 n x| ≤ w n ∧ |b1 n x| ≤ w n ∧ |b2 n x| ≤ w n := by
  have hu : 0 < u := hl.trans hlu
  have hc : 0 < π ^ 2 / 2 * (u ^ 2)⁻¹ := by have := pi_pos; positivity
  set c := π ^ 2 / 2 * (u ^ 2)⁻¹ with hcd
  refine ⟨fun n => ((n : ℝ) + 1) ^ 0 * exp (-(c * ((n : ℝ) + 1) ^ 2)) + (π ^ 2 * (l ^ 3)⁻¹ * (((n : ℝ) + 1) ^ 2 * exp (-(c * ((n : ℝ) + 1) ^ 2))) +
    (π ^ 4 * (l ^ 6)⁻¹ * (((n : ℝ) + 1) ^ 4 * exp (-(c * ((n : ℝ) + 1) ^ 2))) + 3 * π ^ 2 * (l ^ 4)⁻¹ * (((n : ℝ) + 1) ^ 2 * exp (-(c * ((n : ℝ) + 1) ^ 2))))),
    (summable_gauss 0 hc).add (((summable_gauss 2 hc).mul_left _).add
      (((summable_gauss 4 hc).mul_left _).add ((summable_gauss 2 hc).mul_left _))), fun n x hx => ?_⟩
  have hx0 : 0 < x := hl.trans hx.1
  have hpi := pi_pos
  set N : ℝ := (n : ℝ) + 1 with hN
  have hN0 : 0 < N := by positivity
  set E := exp (-(c * N ^ 2)) with hE
  have hE0 : 0 < E := exp_pos _
  have he : exp (-(π ^ 2 * N ^ 2 / 2 * (x ^ 2)⁻¹)) ≤ E := by
    refine exp_le_exp.2 ?_
    have : (u ^ 2)⁻¹ ≤ (x ^ 2)⁻¹ := inv_anti₀ (by positivity) (pow_le_pow_left₀ hx0.le hx.2.le 2)
    rw [hcd]
    nlinarith [mul_le_mul_of_nonneg_left this (by positivity : 0 ≤ π ^ 2 / 2 * N ^ 2)]
  have hep := exp_pos (-(π ^ 2 * N ^ 2 / 2 * (x ^ 2)⁻¹))
  have inv : ∀ k, (x ^ k)⁻¹ ≤ (l ^ k)⁻¹ := fun k => inv_anti₀ (by positivity) (pow_le_pow_left₀ hl.le hx.1.le k)
  have t0 : 0 ≤ N ^ 0 * E := by positivity
  have t1 : 0 ≤ π ^ 2 * (l ^ 3)⁻¹ * (N ^ 2 * E) := by positivity
  have t2 : 0 ≤ π ^ 4 * (l ^ 6)⁻¹ * (N ^ 4 * E) + 3 * π ^ 2 * (l ^ 4)⁻¹ * (N ^ 2 * E) := by positivity
  refine ⟨?_, ?_, ?_⟩
  · have : |b0 n x| ≤ N ^ 0 * E := by
      rw [b0, abs_of_pos hep, pow_zero, one_mul]
      exact he
    linarith
  · have : |b1 n x| ≤ π ^ 2 * (l ^ 3)⁻¹ * (N ^ 2 * E) := by
      rw [b1, abs_of_pos (by positivity)]
      have h1 := mul_le_mul_of_nonneg_left (inv 3) (by positivity : 0 ≤ π ^ 2 * N ^ 2)
      refine (mul_le_mul h1 he hep.le (by positivity)).trans (le_of_eq (by ring))
    linarith
  · have : |b2 n x| ≤ π ^ 4 * (l ^ 6)⁻¹ * (N ^ 4 * E) + 3 * π ^ 2 * (l ^ 4)⁻¹ * (N ^ 2 * E) := by
      rw [b2, abs_mul, abs_of_pos hep]
      have k1 := mul_le_mul_of_nonneg_left (inv 6) (by positivity : 0 ≤ π ^ 4 * N ^ 4)
      have k2 := mul_le_mul_of_nonneg_left (inv 4) (by positivity : 0 ≤ 3 * π ^ 2 * N ^ 2)
      have k3 : 0 ≤ π ^ 4 * N ^ 4 * (x ^ 6)⁻¹ := by positivity
      have k4 : 0 ≤ 3 * π ^ 2 * N ^ 2 * (x ^ 4)⁻¹ := by positivity
      have h1 : |π ^ 4 * N ^ 4 * (x ^ 6)⁻¹ - 3 * π ^ 2 * N ^ 2 * (x ^ 4)⁻¹| ≤ π ^ 4 * N ^ 4 * (l ^ 6)⁻¹ + 3 * π ^ 2 * N ^ 2 * (l ^ 4)⁻¹ := by
        rw [abs_le]
        constructor <;> linarith
      refine (mul_le_mul h1 he hep.le (by positivity)).trans (le_of_eq (by ring))
    linarith

theorem near {x : ℝ} (hx : 0 < x) : x ∈ Set.Ioo (x / 2) (2 * x) := ⟨by linarith, by linarith⟩

theorem a_summable {x : ℝ} (hx : 0 < x) : Summable (a0 · x) ∧ Summable (a1 · x) ∧ Summable (a2 · x) := by
  obtain ⟨w, hw, h⟩ := a_bound (l := x / 2) (u := 2 * x) (by linarith)
  exact ⟨.of_norm_bounded hw fun n => (h n x (near hx)).1, .of_norm_bounded hw fun n => (h n x (near hx)).2.1,
    .of_norm_bounded hw fun n => (h n x (near hx)).2.2⟩

theorem b_summable {x : ℝ} (hx : 0 < x) : Summable (b0 · x) ∧ Summable (b1 · x) ∧ Summable (b2 · x) := by
  obtain ⟨w, hw, h⟩ := b_bound (l := x / 2) (u := 2 * x) (by linarith) (by linarith)
  exact ⟨.of_norm_bounded hw fun n => (h n x (near hx)).1, .of_norm_bounded hw fun n => (h n x (near hx)).2.1,
    .of_norm_bounded hw fun n => (h n x (near hx)).2.2⟩

theorem A0_deriv {x : ℝ} (hx : 0 < x) : HasDerivAt A0 (A1 x) x := by
  obtain ⟨w, hw, h⟩ := a_bound (l := x / 2) (u := 2 * x) (by linarith)
  exact hasDerivAt_tsum_of_isPreconnected hw isOpen_Ioo isPreconnected_Ioo (fun n y _ => a0_deriv n y) (fun n y hy => (h n y hy).2.1)
    (near hx) (a_summable hx).1 (near hx)

theorem A1_deriv {x : ℝ} (hx : 0 < x) : HasDerivAt A1 (A2 x) x := by
  obtain ⟨w, hw, h⟩ := a_bound (l := x / 2) (u := 2 * x) (by linarith)
  exact hasDerivAt_tsum_of_isPreconnected hw isOpen_Ioo isPreconnected_Ioo (fun n y _ => a1_deriv n y) (fun n y hy => (h n y hy).2.2)
    (near hx) (a_summable hx).2.1 (near hx)

theorem B0_deriv {x : ℝ} (hx : 0 < x) : HasDerivAt B0 (B1 x) x := by
  obtain ⟨w, hw, h⟩ := b_bound (l := x / 2) (u := 2 * x) (by linarith) (by linarith)
  exact hasDerivAt_tsum_of_isPreconnected hw isOpen_Ioo isPreconnected_Ioo (fun n y hy => b0_deriv n (by linarith [hy.1])) (fun n y hy => (h n y hy).2.1)
    (near hx) (b_summable hx).1 (near hx)

theorem B1_deriv {x : ℝ} (hx : 0 < x) : HasDerivAt B1 (B2 x) x := by
  obtain ⟨w, hw, h⟩ := b_bound (l := x / 2) (u := 2 * x) (by linarith) (by linarith)
  exact hasDerivAt_tsum_of_isPreconnected hw isOpen_Ioo isPreconnected_Ioo (fun n y hy => b1_deriv n (by linarith [hy.1])) (fun n y hy => (h n y hy).2.2)
    (near hx) (b_summable hx).2.1 (near hx)

/-- A Gaussian sum over the integers, by the positive ones. -/
theorem int_sum {c : ℝ} (hc : 0 < c) : ∑' n : ℤ, exp (-c * (n : ℝ) ^ 2) = 1 + 2 * ∑' n : ℕ, exp (-c * ((n : ℝ) + 1) ^ 2) := by
  have hs : Summable fun n : ℤ => exp (-c * (n : ℝ) ^ 2) := by
    refine Summable.of_nat_of_neg ?_ ?_ <;>
    · refine (summable_nat_add_iff 1).1 ((summable_gauss 0 hc).congr fun n => ?_)
      push_cast
      rw [pow_zero, one_mul]
      congr 1
      ring
  rw [tsum_int_eq_zero_add_two_mul_tsum_pnat (fun n => by simp) hs, tsum_pnat_eq_tsum_succ (f := fun n : ℕ => exp (-c * (((n : ℤ) : ℝ)) ^ 2))]
  simp

theorem theta {x : ℝ} (hx : 0 < x) : x + 2 * A0 x = sqrt (π / 2) * (1 + 2 * B0 x) := by
  have hpi := pi_pos
  have h := Real.tsum_exp_neg_mul_int_sq (a := 2 * x ^ 2 / π) (by positivity)
  have e1 : ∀ n : ℤ, exp (-π * (2 * x ^ 2 / π) * (n : ℝ) ^ 2) = exp (-(2 * x ^ 2) * (n : ℝ) ^ 2) := fun n => by
    congr 1
    field_simp
  have e2 : ∀ n : ℤ, exp (-π / (2 * x ^ 2 / π) * (n : ℝ) ^ 2) = exp (-(π ^ 2 / (2 * x ^ 2)) * (n : ℝ) ^ 2) := fun n => by
    congr 1
    field_simp
  rw [tsum_congr e1, tsum_congr e2, int_sum (by positivity), int_sum (by positivity), ← Real.sqrt_eq_rpow] at h
  have e3 : A0 x = x * ∑' n : ℕ, exp (-(2 * x ^ 2) * ((n : ℝ) + 1) ^ 2) := by
    rw [A0, ← tsum_mul_left]
    refine tsum_congr fun n => ?_
    rw [a0]
    congr 2
    ring
  have e4 : B0 x = ∑' n : ℕ, exp (-(π ^ 2 / (2 * x ^ 2)) * ((n : ℝ) + 1) ^ 2) := by
    rw [B0]
    refine tsum_congr fun n => ?_
    rw [b0]
    congr 1
    field_simp
  have e5 : 1 / sqrt (2 * x ^ 2 / π) = sqrt (π / 2) / x := by
    rw [show 2 * x ^ 2 / π = x ^ 2 / (π / 2) by field_simp, Real.sqrt_div' _ (by positivity), Real.sqrt_sq hx.le, one_div_div]
  rw [e5, ← e4] at h
  rw [e3]
  calc x + 2 * (x * ∑' n : ℕ, exp (-(2 * x ^ 2) * ((n : ℝ) + 1) ^ 2)) = x * (1 + 2 * ∑' n : ℕ, exp (-(2 * x ^ 2) * ((n : ℝ) + 1) ^ 2)) := by ring
    _ = _ := by
      rw [h]
      field_simp

theorem theta1 {x : ℝ} (hx : 0 < x) : 1 + 2 * A1 x = sqrt (π / 2) * (2 * B1 x) := by
  have h1 : HasDerivAt (fun x => x + 2 * A0 x) (1 + 2 * A1 x) x := (hasDerivAt_id x).add ((A0_deriv hx).const_mul 2)
  have h2 : HasDerivAt (fun x => sqrt (π / 2) * (1 + 2 * B0 x)) (sqrt (π / 2) * (2 * B1 x)) x :=
    (((B0_deriv hx).const_mul 2).const_add 1).const_mul _
  refine h1.unique (h2.congr_of_eventuallyEq ?_)
  filter_upwards [Ioi_mem_nhds hx] with y hy using theta hy

theorem theta2 {x : ℝ} (hx : 0 < x) : 2 * A2 x = sqrt (π / 2) * (2 * B2 x) := by
  have h1 : HasDerivAt (fun x => 1 + 2 * A1 x) (2 * A2 x) x := ((A1_deriv hx).const_mul 2).const_add 1
  have h2 : HasDerivAt (fun x => sqrt (π / 2) * (2 * B1 x)) (sqrt (π / 2) * (2 * B2 x)) x := ((B1_deriv hx).const_mul 2).const_mul _
  refine h1.unique (h2.congr_of_eventuallyEq ?_)
  filter_upwards [Ioi_mem_nhds hx] with y hy using theta1 hy

theorem B1_pos {x : ℝ} (hx : 0 < x) : 0 < B1 x := by
  have hpi := pi_pos
  have h : ∀ n, 0 < b1 n x := fun n => by rw [b1]; positivity
  exact (b_summable hx).2.1.tsum_pos (fun n => (h n).le) 0 (h 0)

theorem A2_pos {x : ℝ} (hx : 0 < x) : 0 < A2 x := by
  have hpi := pi_pos
  have hpi3 := pi_gt_three
  rcases le_total x 1 with h1 | h1
  · have h : ∀ n, 0 < b2 n x := fun n => by
      rw [b2]
      refine mul_pos ?_ (exp_pos _)
      have e : π ^ 4 * ((n : ℝ) + 1) ^ 4 * (x ^ 6)⁻¹ - 3 * π ^ 2 * ((n : ℝ) + 1) ^ 2 * (x ^ 4)⁻¹ =
          π ^ 2 * ((n : ℝ) + 1) ^ 2 * (x ^ 6)⁻¹ * (π ^ 2 * ((n : ℝ) + 1) ^ 2 - 3 * x ^ 2) := by
        field_simp
      rw [e]
      refine mul_pos (by positivity) ?_
      have hn : (0 : ℝ) ≤ n := n.cast_nonneg
      have h2 : x ^ 2 ≤ 1 := pow_le_one₀ hx.le h1
      have h3 : 9 ≤ π ^ 2 := by nlinarith
      have h4 : 1 ≤ ((n : ℝ) + 1) ^ 2 := by nlinarith
      nlinarith
    have := (b_summable hx).2.2.tsum_pos (fun n => (h n).le) 0 (h 0)
    have h5 := theta2 hx
    have h6 : 0 < sqrt (π / 2) := Real.sqrt_pos.2 (by positivity)
    have h7 : 0 < sqrt (π / 2) * (2 * B2 x) := mul_pos h6 (by simpa [B2] using this)
    linarith
  · have h : ∀ n, 0 < a2 n x := fun n => by
      rw [a2]
      have hn : (0 : ℝ) ≤ n := n.cast_nonneg
      have h4 : 1 ≤ ((n : ℝ) + 1) ^ 2 := by nlinarith
      have h2 : 1 ≤ x ^ 2 := one_le_pow₀ h1
      have : 0 < 4 * ((n : ℝ) + 1) ^ 2 * x ^ 2 - 3 := by nlinarith
      positivity
    exact (a_summable hx).2.2.tsum_pos (fun n => (h n).le) 0 (h 0)

/-- Kuiper's function. -/
def KQ (x : ℝ) : ℝ := -2 * A1 x

theorem KQ_deriv {x : ℝ} (hx : 0 < x) : HasDerivAt KQ (-2 * A2 x) x := (A1_deriv hx).const_mul (-2)

theorem KQ_anti : StrictAntiOn KQ (Set.Ioi 0) := by
  refine strictAntiOn_of_deriv_neg (convex_Ioi 0) (fun x hx => (KQ_deriv hx).continuousAt.continuousWithinAt) fun x hx => ?_
  rw [interior_Ioi] at hx
  rw [(KQ_deriv hx).deriv]
  linarith [A2_pos hx]

theorem KQ_lt_one {x : ℝ} (hx : 0 < x) : KQ x < 1 := by
  have h1 := theta1 hx
  have : 0 < sqrt (π / 2) * (2 * B1 x) := mul_pos (Real.sqrt_pos.2 (by have := pi_pos; positivity)) (by linarith [B1_pos hx])
  rw [KQ]
  linarith

theorem t_exp (t : ℝ) : t * exp (-(2 * t)) ≤ exp (-t) := by
  have : t ≤ exp t := by linarith [Real.add_one_le_exp t]
  calc t * exp (-(2 * t)) ≤ exp t * exp (-(2 * t)) := mul_le_mul_of_nonneg_right this (exp_pos _).le
    _ = exp (-t) := by rw [← exp_add]; congr 1; ring

theorem KQ_tendsto : Tendsto KQ atTop (𝓝 0) := by
  have hb : Summable fun n : ℕ => 5 * (((n : ℝ) + 1) ^ 0 * exp (-(1 * ((n : ℝ) + 1) ^ 2))) := (summable_gauss 0 one_pos).mul_left 5
  have key : ∀ n x, 1 ≤ x → |a1 n x| ≤ 5 * exp (-(((n : ℝ) + 1) ^ 2 * x ^ 2)) := by
    intro n x hx
    set t := ((n : ℝ) + 1) ^ 2 * x ^ 2 with ht
    have ht0 : 0 ≤ t := by positivity
    have e : a1 n x = exp (-(2 * t)) - 4 * (t * exp (-(2 * t))) := by
      rw [a1, show -2 * ((n : ℝ) + 1) ^ 2 * x ^ 2 = -(2 * t) by rw [ht]; ring]
      rw [ht]
      ring
    have h1 := t_exp t
    have h2 : exp (-(2 * t)) ≤ exp (-t) := exp_le_exp.2 (by linarith)
    have h3 := exp_pos (-(2 * t))
    have h4 : 0 ≤ t * exp (-(2 * t)) := mul_nonneg ht0 h3.le
    rw [e, abs_le]
    constructor <;> linarith
  have := tendsto_tsum_of_dominated_convergence (𝓕 := atTop) (f := fun x n => a1 n x) (g := fun _ => (0 : ℝ)) hb
    (fun n => by
      have lim : Tendsto (fun x : ℝ => 5 * exp (-(((n : ℝ) + 1) ^ 2 * x ^ 2))) atTop (𝓝 0) := by
        rw [show (0 : ℝ) = 5 * 0 by ring]
        refine Tendsto.const_mul 5 (Real.tendsto_exp_neg_atTop_nhds_zero.comp ?_)
        exact Tendsto.const_mul_atTop (by positivity) (tendsto_pow_atTop two_ne_zero)
      refine squeeze_zero_norm' ?_ lim
      filter_upwards [eventually_ge_atTop 1] with x hx using key n x hx)
    (by
      filter_upwards [eventually_ge_atTop 1] with x hx n
      refine (key n x hx).trans ?_
      rw [pow_zero, one_mul]
      refine mul_le_mul_of_nonneg_left (exp_le_exp.2 ?_) (by norm_num)
      have : 1 ≤ x ^ 2 := one_le_pow₀ hx
      nlinarith [sq_nonneg ((n : ℝ) + 1)])
  rw [tsum_zero] at this
  have h2 := this.const_mul (-2)
  rw [mul_zero] at h2
  exact h2

theorem KQ_pos {x : ℝ} (hx : 0 < x) : 0 < KQ x := by
  have h1 : KQ (x + 1) < KQ x := KQ_anti hx (by simpa using (by linarith : 0 < x + 1)) (by linarith)
  have h2 : 0 ≤ KQ (x + 1) := by
    refine le_of_tendsto KQ_tendsto ?_
    filter_upwards [eventually_ge_atTop (x + 1)] with y hy
    exact KQ_anti.antitoneOn (by simpa using (by linarith : 0 < x + 1)) (by simpa using (by linarith : 0 < y)) hy
  linarith

theorem B1_tendsto : Tendsto B1 (𝓝[>] 0) (𝓝 0) := by
  have hpi := pi_pos
  have hpi3 := pi_gt_three
  have hb : Summable fun n : ℕ => π ^ 2 * (((n : ℝ) + 1) ^ 0 * exp (-(1 * ((n : ℝ) + 1) ^ 2))) := (summable_gauss 0 one_pos).mul_left _
  have key : ∀ n x, 0 < x → x ≤ 1 → |b1 n x| ≤ π ^ 2 * exp (-(((n : ℝ) + 1) ^ 2 * (x ^ 2)⁻¹)) := by
    intro n x hx hx1
    have hn : (0 : ℝ) ≤ n := n.cast_nonneg
    set N := (n : ℝ) + 1 with hN
    have hN1 : 1 ≤ N := by linarith
    set t := N ^ 2 * (x ^ 2)⁻¹ with ht
    have ht0 : 0 ≤ t := by positivity
    have h1 : N ^ 2 * (x ^ 3)⁻¹ ≤ t * t := by
      rw [ht, show N ^ 2 * (x ^ 2)⁻¹ * (N ^ 2 * (x ^ 2)⁻¹) = N ^ 4 * (x ^ 4)⁻¹ by ring]
      refine mul_le_mul (pow_le_pow_right₀ hN1 (by norm_num)) (inv_anti₀ (by positivity) ?_) (by positivity) (by positivity)
      exact pow_le_pow_of_le_one hx.le hx1 (by norm_num)
    have h2 : exp (-(π ^ 2 * N ^ 2 / 2 * (x ^ 2)⁻¹)) ≤ exp (-(2 * t)) * exp (-(2 * t)) := by
      rw [← exp_add]
      refine exp_le_exp.2 ?_
      rw [show π ^ 2 * N ^ 2 / 2 * (x ^ 2)⁻¹ = π ^ 2 / 2 * t by rw [ht]; ring]
      have h9 : 9 ≤ π ^ 2 := by nlinarith
      nlinarith [mul_le_mul_of_nonneg_right h9 ht0]
    have h3 := t_exp t
    have h4 : 0 ≤ t * exp (-(2 * t)) := by positivity
    rw [b1, abs_of_pos (by positivity), show π ^ 2 * N ^ 2 * (x ^ 3)⁻¹ * exp (-(π ^ 2 * N ^ 2 / 2 * (x ^ 2)⁻¹)) =
      π ^ 2 * (N ^ 2 * (x ^ 3)⁻¹ * exp (-(π ^ 2 * N ^ 2 / 2 * (x ^ 2)⁻¹))) by ring]
    refine mul_le_mul_of_nonneg_left ?_ (by positivity)
    calc N ^ 2 * (x ^ 3)⁻¹ * exp (-(π ^ 2 * N ^ 2 / 2 * (x ^ 2)⁻¹)) ≤ t * t * (exp (-(2 * t)) * exp (-(2 * t))) :=
          mul_le_mul h1 h2 (exp_pos _).le (by positivity)
      _ = (t * exp (-(2 * t))) * (t * exp (-(2 * t))) := by ring
      _ ≤ exp (-t) * exp (-t) := mul_le_mul h3 h3 h4 (exp_pos _).le
      _ ≤ exp (-t) * 1 := mul_le_mul_of_nonneg_left (exp_le_one_iff.2 (by linarith)) (exp_pos _).le
      _ = exp (-t) := mul_one _
  have near0 : ∀ᶠ x : ℝ in 𝓝[>] 0, 0 < x ∧ x ≤ 1 := by
    filter_upwards [Ioc_mem_nhdsGT (one_pos : (0 : ℝ) < 1)] with x hx using hx
  have := tendsto_tsum_of_dominated_convergence (𝓕 := 𝓝[>] (0 : ℝ)) (f := fun x n => b1 n x) (g := fun _ => (0 : ℝ)) hb
    (fun n => by
      have lim : Tendsto (fun x : ℝ => π ^ 2 * exp (-(((n : ℝ) + 1) ^ 2 * (x ^ 2)⁻¹))) (𝓝[>] 0) (𝓝 0) := by
        rw [show (0 : ℝ) = π ^ 2 * 0 by ring]
        refine Tendsto.const_mul _ (Real.tendsto_exp_neg_atTop_nhds_zero.comp ?_)
        rw [mul_zero]
        refine Tendsto.const_mul_atTop (by positivity) ?_
        have := (tendsto_pow_atTop (α := ℝ) two_ne_zero).comp tendsto_inv_nhdsGT_zero
        refine this.congr fun x => ?_
        simp
      refine squeeze_zero_norm' ?_ lim
      filter_upwards [near0] with x hx using key n x hx.1 hx.2)
    (by
      filter_upwards [near0] with x hx n
      refine (key n x hx.1 hx.2).trans ?_
      rw [pow_zero, one_mul]
      refine mul_le_mul_of_nonneg_left (exp_le_exp.2 ?_) (by positivity)
      have : 1 ≤ (x ^ 2)⁻¹ := (one_le_inv₀ (by have := hx.1; positivity)).2 (pow_le_one₀ hx.1.le hx.2)
      nlinarith [sq_nonneg ((n : ℝ) + 1)])
  rw [tsum_zero] at this
  exact this

theorem KQ_tendsto_one : Tendsto KQ (𝓝[>] 0) (𝓝 1) := by
  have h1 : Tendsto (fun x => 1 - sqrt (π / 2) * (2 * B1 x)) (𝓝[>] 0) (𝓝 (1 - sqrt (π / 2) * (2 * 0))) :=
    ((B1_tendsto.const_mul 2).const_mul _).const_sub 1
  rw [mul_zero, mul_zero, sub_zero] at h1
  refine h1.congr' ?_
  filter_upwards [self_mem_nhdsWithin] with x hx
  rw [← theta1 hx, KQ]
  ring

end
end Ku
end Dh
