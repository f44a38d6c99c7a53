import Verif.Model.Sums
import Verif.Proof.Tally
import Verif.Props.MinDist
import Mathlib.Probability.Moments.Covariance
import Mathlib.Probability.Independence.InfinitePi
import Mathlib.Analysis.SpecialFunctions.Integrals.Basic
/-
C69, C70: the overlapping sums test.
-/
namespace Dh
open ProbabilityTheory MeasureTheory

/-- The sum of `m` consecutive draws starting with draw `t`. -/
noncomputable def Spec.windowSum (u : ℕ → ℝ) (m t : Nat) : ℝ := ∑ i ∈ Finset.range m, u (t + i)

/-- The window sum scaled so that a window of `m` independent uniform draws has mean 0 and variance `m`. -/
noncomputable def Spec.scaledSum (u : ℕ → ℝ) (m t : Nat) : ℝ := (Spec.windowSum u m t - m / 2) * Real.sqrt 12

/-- The linear combination of the scaled sums that entry `t` of the tested vector is made of. -/
noncomputable def Spec.sumsForm (u : ℕ → ℝ) (m t : Nat) : ℝ :=
  let Y := Spec.scaledSum u m
  if t = 0 then Y 0 / Real.sqrt m
  else if t = 1 then (m * Y 1 - (m - 1) * Y 0) / Real.sqrt (m * (2 * m - 1))
  else
    let a : ℝ := 2 * m + 1 - t
    (Y (t - 2) - (a - 1) * Y (t - 1) + a * Y t) / Real.sqrt (2 * a * (a - 1))

theorem getD_set' (f : List ℝ) (i : Nat) (x : ℝ) (h : i < f.length) (v : Nat) :
    (f.set i x).getD v 0 = if v = i then x else f.getD v 0 := getD_set f i x 0 h v

theorem sumsDraw_spec (u : ℕ → ℝ) (m : Nat) : ∀ (todo t : Nat) (rl y : List ℝ), t + todo = m → rl.length = m → y.length = m →
    y.getD 0 0 = ∑ i ∈ Finset.range t, u i → (∀ i < t, rl.getD i 0 = u i) →
    ∃ rl' y', sumsDraw u todo t rl y = .ok (rl', y') ∧ rl'.length = m ∧ y'.length = m ∧
      y'.getD 0 0 = ∑ i ∈ Finset.range m, u i ∧ ∀ i < m, rl'.getD i 0 = u i := by
  intro todo
  induction todo with
  | zero =>
    intro t rl y ht hrl hy h1 h2
    obtain rfl : t = m := by omega
    exact ⟨rl, y, rfl, hrl, hy, h1, h2⟩
  | succ todo ih =>
    intro t rl y ht hrl hy h1 h2
    have l1 : (rl.set t (u t)).length = m := by simpa using hrl
    obtain ⟨rl', y', e, r⟩ := ih (t + 1) (rl.set t (u t)) (y.set 0 (y.getD 0 0 + u t)) (by omega) l1 (by simpa using hy)
      (by rw [getD_set' _ _ _ (by omega), if_pos rfl, h1, Finset.sum_range_succ])
      (by
        intro i hi
        rw [getD_set' _ _ _ (by omega)]
        split
        · subst i; rfl
        · exact h2 i (by omega))
    refine ⟨rl', y', ?_, r⟩
    rw [sumsDraw, wr, if_pos (by omega)]
    simp only [Res.bind_ok]
    rw [rd_dflt 0 (by omega), rd_dflt 0 (by omega), getD_set' _ _ _ (by omega), if_pos rfl]
    simp only [Res.bind_ok]
    rw [wr, if_pos (by omega)]
    exact e

theorem windowSum_succ (u : ℕ → ℝ) (m t : Nat) (hm : 1 ≤ m) :
    Spec.windowSum u m (t + 1) = Spec.windowSum u m t - u t + u (m + t) := by
  obtain ⟨k, rfl⟩ : ∃ k, m = k + 1 := ⟨m - 1, by omega⟩
  unfold Spec.windowSum
  rw [Finset.sum_range_succ, Finset.sum_range_succ']
  have : ∀ i, t + 1 + i = t + (i + 1) := fun i => by omega
  simp only [this, Nat.add_zero]
  rw [show k + 1 + t = t + (k + 1) by omega]
  ring

theorem sumsSlide_spec (u : ℕ → ℝ) (m : Nat) (rl : List ℝ) (hrl : rl.length = m) (hr : ∀ i < m, rl.getD i 0 = u i) :
    ∀ (todo t : Nat) (y : List ℝ), 1 ≤ t → t + todo = m → y.length = m →
    y.getD (t - 1) 0 = Spec.windowSum u m (t - 1) → (∀ i < t - 1, y.getD i 0 = Spec.scaledSum u m i) →
    ∃ y', sumsSlide u m (0.5 * m) (Real.sqrt 12) rl todo t y = .ok y' ∧ y'.length = m ∧
      y'.getD (m - 1) 0 = Spec.windowSum u m (m - 1) ∧ ∀ i < m - 1, y'.getD i 0 = Spec.scaledSum u m i := by
  intro todo
  induction todo with
  | zero =>
    intro t y h1 ht hy hw hs
    obtain rfl : t = m := by omega
    exact ⟨y, rfl, hy, hw, hs⟩
  | succ todo ih =>
    intro t y h1 ht hy hw hs
    have hnew : y.getD (t - 1) 0 - rl.getD (t - 1) 0 + u (m + (t - 1)) = Spec.windowSum u m t := by
      rw [hw, hr _ (by omega), ← windowSum_succ u m (t - 1) (by omega), Nat.sub_add_cancel h1]
    obtain ⟨y', e, r⟩ := ih (t + 1) ((y.set t (Spec.windowSum u m t)).set (t - 1)
        ((Spec.windowSum u m (t - 1) - 0.5 * m) * Real.sqrt 12)) (by omega) (by omega) (by simpa using hy)
      (by
        rw [getD_set' _ _ _ (by simp; omega), if_neg (by omega), Nat.add_sub_cancel, getD_set' _ _ _ (by omega), if_pos rfl])
      (by
        intro i hi
        rw [getD_set' _ _ _ (by simp; omega)]
        split
        · subst i
          rw [Spec.scaledSum]
          ring_nf
        · rw [getD_set' _ _ _ (by omega), if_neg (by omega)]
          exact hs i (by omega))
    refine ⟨y', ?_, r⟩
    rw [sumsSlide, rd_dflt 0 (by omega), rd_dflt 0 (by omega)]
    simp only [Res.bind_ok]
    rw [hnew, wr, if_pos (by omega)]
    simp only [Res.bind_ok]
    rw [rd_dflt 0 (by simp; omega), getD_set' _ _ _ (by omega), if_neg (by omega), hw]
    simp only [Res.bind_ok]
    rw [wr, if_pos (by simp; omega)]
    exact e

theorem sqrt_form (a y2 y1 y0 : ℝ) (ha : 1 < a) :
    y2 / Real.sqrt (a * (2 * a - 2)) - y1 * Real.sqrt ((a - 1) / (2 * a - 2 + 2)) + y0 * Real.sqrt (a / (2 * a - 2)) =
      (y2 - (a - 1) * y1 + a * y0) / Real.sqrt (2 * a * (a - 1)) := by
  have h1 : (0 : ℝ) < 2 * a * (a - 1) := by nlinarith
  have hs : 0 < Real.sqrt (2 * a * (a - 1)) := Real.sqrt_pos.2 h1
  have e0 : a * (2 * a - 2) = 2 * a * (a - 1) := by ring
  have e1 : Real.sqrt ((a - 1) / (2 * a - 2 + 2)) = (a - 1) / Real.sqrt (2 * a * (a - 1)) := by
    rw [eq_div_iff hs.ne', ← Real.sqrt_mul (by apply div_nonneg <;> linarith)]
    rw [show (a - 1) / (2 * a - 2 + 2) * (2 * a * (a - 1)) = (a - 1) ^ 2 by
      have : a ≠ 0 := by linarith
      rw [show 2 * a - 2 + 2 = 2 * a by ring]
      field_simp]
    exact Real.sqrt_sq (by linarith)
  have e2 : Real.sqrt (a / (2 * a - 2)) = a / Real.sqrt (2 * a * (a - 1)) := by
    rw [eq_div_iff hs.ne', ← Real.sqrt_mul (by apply div_nonneg <;> linarith)]
    rw [show a / (2 * a - 2) * (2 * a * (a - 1)) = a ^ 2 by
      have : (a - 1 : ℝ) ≠ 0 := by linarith
      rw [show 2 * a - 2 = 2 * (a - 1) by ring]
      field_simp]
    exact Real.sqrt_sq (by linarith)
  rw [e0, e1, e2]
  ring

theorem sumsTransform_spec (cdf : ℝ → ℝ) (u : ℕ → ℝ) (m : Nat) (y : List ℝ) (hy : y.length = m)
    (hv : ∀ i < m, y.getD i 0 = Spec.scaledSum u m i) : ∀ (todo t : Nat) (x : List ℝ), 2 ≤ t → t + todo = m → x.length = m →
    (∀ i < t, x.getD i 0 = cdf (Spec.sumsForm u m i)) →
    ∃ x', sumsTransform cdf m y todo t x = .ok x' ∧ x'.length = m ∧ ∀ i < m, x'.getD i 0 = cdf (Spec.sumsForm u m i) := by
  intro todo
  induction todo with
  | zero =>
    intro t x h1 ht hx h
    obtain rfl : t = m := by omega
    exact ⟨x, rfl, hx, h⟩
  | succ todo ih =>
    intro t x h1 ht hx h
    have htm : (t : ℝ) < m := by exact_mod_cast (show t < m by omega)
    have hform := sqrt_form (2 * m + 1 - t) (y.getD (t - 2) 0) (y.getD (t - 1) 0) (y.getD t 0) (by
      have : (2 : ℝ) ≤ t := by exact_mod_cast h1
      linarith)
    have hz : (y.getD (t - 2) 0 - (2 * (m : ℝ) + 1 - t - 1) * y.getD (t - 1) 0 + (2 * m + 1 - t) * y.getD t 0) /
        Real.sqrt (2 * (2 * m + 1 - t) * (2 * m + 1 - t - 1)) = Spec.sumsForm u m t := by
      rw [Spec.sumsForm, if_neg (by omega), if_neg (by omega), hv _ (by omega), hv _ (by omega), hv _ (by omega)]
    obtain ⟨x', e, r⟩ := ih (t + 1) (x.set t (cdf (Spec.sumsForm u m t))) (by omega) (by omega) (by simpa using hx) (by
      intro i hi
      rw [getD_set' _ _ _ (by omega)]
      split
      · subst i; rfl
      · exact h i (by omega))
    refine ⟨x', ?_, r⟩
    rw [sumsTransform, rd_dflt 0 (by omega), rd_dflt 0 (by omega), rd_dflt 0 (by omega)]
    simp only [Res.bind_ok]
    rw [hform, hz, wr, if_pos (by omega)]
    simp only [Res.bind_ok]
    rw [rd_dflt 0 (by simp; omega), getD_set' _ _ _ (by omega), if_pos rfl]
    simp only [Res.bind_ok]
    rw [wr, if_pos (by simp; omega), List.set_set]
    exact e

/-- **C69.** For `m ≥ 2` samples `diehard_sums` stays inside its vectors and hands to the KS test the `m` values `Φ(z_t)`, where
`z_t` is the stated combination of the scaled sums of `m` consecutive draws starting at draws `t-2`, `t-1` and `t`; it uses the
first `2m - 1` draws. -/
theorem C69_sums (cdf : ℝ → ℝ) (u : ℕ → ℝ) (m : Nat) (hm : 2 ≤ m) (x0 rl0 : List ℝ) (hx : x0.length = m) (hrl : rl0.length = m) :
    diehardSums cdf u m x0 rl0 = .ok ((List.range m).map fun t => cdf (Spec.sumsForm u m t)) := by
  obtain ⟨rl, y, h1, h2, h3, h4, h5⟩ := sumsDraw_spec u m m 0 rl0 (List.replicate m 0) (by omega) hrl (by simp)
    (by rw [List.getD_eq_getElem?_getD, List.getElem?_replicate, if_pos (by omega)]; simp) (by omega)
  obtain ⟨y', h6, h7, h8, h9⟩ := sumsSlide_spec u m rl h2 h5 (m - 1) 1 y (by omega) (by omega) h3
    (by rw [h4]; simp [Spec.windowSum]) (by omega)
  have hm' : (2 : ℝ) ≤ m := by exact_mod_cast hm
  have hlast : (y'.getD (m - 1) 0 - 0.5 * m) * Real.sqrt 12 = Spec.scaledSum u m (m - 1) := by
    rw [h8, Spec.scaledSum]; ring_nf
  have hys : ∀ i < m, (y'.set (m - 1) (Spec.scaledSum u m (m - 1))).getD i 0 = Spec.scaledSum u m i := by
    intro i hi
    rw [getD_set' _ _ _ (by omega)]
    split
    · subst i; rfl
    · exact h9 i (by omega)
  have hz0 : Spec.scaledSum u m 0 / Real.sqrt (1 * m) = Spec.sumsForm u m 0 := by
    rw [Spec.sumsForm, if_pos rfl, one_mul]
  have hz1 : -Spec.sumsForm u m 0 * (m - 1 : ℝ) / Real.sqrt (2 * m - 1) + Spec.scaledSum u m 1 * Real.sqrt (m / (2 * m - 1)) =
      Spec.sumsForm u m 1 := by
    have p1 : (0 : ℝ) < m := by linarith
    have p2 : (0 : ℝ) < 2 * m - 1 := by linarith
    have q1 := Real.sqrt_pos.2 p1
    have q2 := Real.sqrt_pos.2 p2
    have hq := Real.mul_self_sqrt p1.le
    rw [Spec.sumsForm, if_pos rfl, Spec.sumsForm, if_neg (by omega), if_pos rfl, Real.sqrt_div p1.le, Real.sqrt_mul p1.le]
    field_simp
    rw [pow_two, hq]
    ring
  obtain ⟨x', h10, h11, h12⟩ := sumsTransform_spec cdf u m _ (by simpa using h7) hys (m - 2) 2
    ((((x0.set 0 (Spec.sumsForm u m 0)).set 1 (Spec.sumsForm u m 1)).set 0 (cdf (Spec.sumsForm u m 0))).set 1 (cdf (Spec.sumsForm u m 1)))
    (le_refl _) (by omega) (by simpa using hx) (by
      intro i hi
      rw [getD_set' _ _ _ (by simp; omega)]
      split
      · subst i; rfl
      · rw [getD_set' _ _ _ (by simp; omega), if_pos (by omega)]
        obtain rfl : i = 0 := by omega
        rfl)
  have hfin : x' = (List.range m).map fun t => cdf (Spec.sumsForm u m t) := by
    apply List.ext_getElem
    · simp [h11]
    · intro i hi1 hi2
      have := h12 i (by omega)
      rw [List.getD_eq_getElem?_getD, List.getElem?_eq_getElem hi1, Option.getD_some] at this
      rw [this]; simp
  unfold diehardSums
  simp only [h1, Res.bind_ok, h6]
  rw [if_neg (by omega), rd_dflt 0 (by omega)]
  simp only [Res.bind_ok]
  rw [hlast, wr, if_pos (by omega)]
  simp only [Res.bind_ok]
  rw [rd_dflt 0 (by simp; omega), hys 0 (by omega), rd_dflt 0 (by simp; omega), hys 1 (by omega)]
  simp only [Res.bind_ok]
  rw [hz0, wr, if_pos (by omega)]
  simp only [Res.bind_ok]
  rw [rd_dflt 0 (by simp; omega), getD_set' _ _ _ (by omega), if_pos rfl]
  simp only [Res.bind_ok]
  rw [hz1, wr, if_pos (by simp; omega)]
  simp only [Res.bind_ok]
  rw [rd_dflt 0 (by simp; omega), getD_set' _ _ _ (by simp; omega), if_neg (by omega), getD_set' _ _ _ (by omega), if_pos rfl]
  simp only [Res.bind_ok]
  rw [wr, if_pos (by simp; omega)]
  simp only [Res.bind_ok]
  rw [rd_dflt 0 (by simp; omega), getD_set' _ _ _ (by simp; omega), if_neg (by omega), getD_set' _ _ _ (by simp; omega), if_pos rfl]
  simp only [Res.bind_ok]
  rw [wr, if_pos (by simp; omega)]
  simp only [Res.bind_ok]
  rw [h10, hfin]

/-- **C69, negation for tiny sizes.** With a single sample the code writes past the end of `x`. -/
theorem C69_one_sample (cdf : ℝ → ℝ) (u : ℕ → ℝ) (x0 rl0 : List ℝ) (hx : x0.length = 1) (hrl : rl0.length = 1) :
    diehardSums cdf u 1 x0 rl0 = .ub ∧ diehardSums cdf u 0 [] [] = .ub := by
  obtain ⟨a, rfl⟩ := List.length_eq_one_iff.1 hx
  obtain ⟨b, rfl⟩ := List.length_eq_one_iff.1 hrl
  constructor <;> simp [diehardSums, sumsDraw, sumsSlide, wr, rd]

section
variable {Ω : Type*} [MeasurableSpace Ω] {μ : Measure Ω} [IsProbabilityMeasure μ] {U : ℕ → Ω → ℝ}

/-- The draws of an ideal generator as far as second moments see them: uncorrelated, with the variance `1/12` of a uniform deviate. -/
structure Spec.WhiteDraws (μ : Measure Ω) (U : ℕ → Ω → ℝ) : Prop where
  l2 : ∀ i, MemLp (U i) 2 μ
  cov : ∀ i j, cov[U i, U j; μ] = if i = j then 1 / 12 else 0

theorem scaledSum_memLp (h : Spec.WhiteDraws μ U) (m t : Nat) :
    MemLp (fun ω => Spec.scaledSum (fun i => U i ω) m t) 2 μ := by
  unfold Spec.scaledSum Spec.windowSum
  exact (((memLp_finsetSum _ fun i _ => h.l2 (t + i)).sub (memLp_const _)).mul_const _)

/-- The covariance of two scaled window sums is the number of draws they share. -/
theorem scaledSum_cov (h : Spec.WhiteDraws μ U) (m s t : Nat) (hst : s ≤ t) (htm : t ≤ s + m) :
    cov[fun ω => Spec.scaledSum (fun i => U i ω) m s, fun ω => Spec.scaledSum (fun i => U i ω) m t; μ] = m - (t - s : ℝ) := by
  have hs : ∀ t, MemLp (fun ω => Spec.windowSum (fun i => U i ω) m t) 2 μ := by
    intro t; unfold Spec.windowSum; exact memLp_finsetSum _ fun i _ => h.l2 (t + i)
  have hi : ∀ t, Integrable (fun ω => Spec.windowSum (fun i => U i ω) m t) μ := fun t => (hs t).integrable (by norm_num)
  unfold Spec.scaledSum
  rw [covariance_mul_const_left, covariance_mul_const_right, covariance_sub_const_left (hi s),
    covariance_sub_const_right (hi t)]
  unfold Spec.windowSum
  rw [covariance_fun_sum_fun_sum' (fun i _ => h.l2 (s + i)) (fun i _ => h.l2 (t + i))]
  simp_rw [h.cov]
  have h12 : Real.sqrt 12 * Real.sqrt 12 = 12 := Real.mul_self_sqrt (by norm_num)
  have hc : ∀ i ∈ Finset.range m, (∑ j ∈ Finset.range m, if s + i = t + j then (1 / 12 : ℝ) else 0) =
      if t - s ≤ i then 1 / 12 else 0 := by
    intro i hi
    have hi := Finset.mem_range.1 hi
    split
    · rw [Finset.sum_eq_single (i - (t - s))]
      · rw [if_pos (by omega)]
      · intro j _ hj; rw [if_neg (by omega)]
      · intro hj; exact absurd (Finset.mem_range.2 (by omega)) hj
    · apply Finset.sum_eq_zero
      intro j _
      rw [if_neg (by omega)]
  rw [Finset.sum_congr rfl hc, ← Finset.sum_filter, Finset.sum_const]
  have hcard : ((Finset.range m).filter fun i => t - s ≤ i).card = m - (t - s) := by
    have : (Finset.range m).filter (fun i => t - s ≤ i) = Finset.Ico (t - s) m := by
      ext i; simp [Finset.mem_Ico]; omega
    rw [this, Nat.card_Ico]
  rw [hcard, nsmul_eq_mul, Nat.cast_sub (by omega), Nat.cast_sub hst, mul_assoc, h12]
  ring

theorem cov_lin3 {A B C D : Ω → ℝ} (hA : MemLp A 2 μ) (hB : MemLp B 2 μ) (hC : MemLp C 2 μ) (hD : MemLp D 2 μ) (a b c : ℝ) :
    cov[D, fun ω => a * A ω + b * B ω + c * C ω; μ] = a * cov[D, A; μ] + b * cov[D, B; μ] + c * cov[D, C; μ] := by
  have e : (fun ω => a * A ω + b * B ω + c * C ω) = ((fun ω => a * A ω) + fun ω => b * B ω) + fun ω => c * C ω := rfl
  have ha := hA.const_mul a
  have hb := hB.const_mul b
  have hc := hC.const_mul c
  rw [e, covariance_add_right hD (ha.add hb) hc, covariance_add_right hD ha hb, covariance_const_mul_right,
    covariance_const_mul_right, covariance_const_mul_right]

/-- What the third line of the transformation would have to be for the result to be uncorrelated: the first sum `Y 0` in place of
`Y (t-2)` (this is the line commented out at diehard_sums.c:249). -/
noncomputable def Spec.sumsFormFirst (u : ℕ → ℝ) (m t : Nat) : ℝ :=
  let Y := Spec.scaledSum u m
  if t = 0 then Y 0 / Real.sqrt m
  else
    let a : ℝ := 2 * m + 1 - t
    (Y 0 - (a - 1) * Y (t - 1) + a * Y t) / Real.sqrt (2 * a * (a - 1))

theorem memLp_lin3 {A B C : Ω → ℝ} (hA : MemLp A 2 μ) (hB : MemLp B 2 μ) (hC : MemLp C 2 μ) (a b c : ℝ) :
    MemLp (fun ω => a * A ω + b * B ω + c * C ω) 2 μ := ((hA.const_mul a).add (hB.const_mul b)).add (hC.const_mul c)

theorem firstForm_eq (m t : Nat) (ht : t ≠ 0) : (fun ω => Spec.sumsFormFirst (fun i => U i ω) m t) = fun ω =>
    (Real.sqrt (2 * (2 * m + 1 - t) * (2 * m + 1 - t - 1)))⁻¹ * Spec.scaledSum (fun i => U i ω) m 0 +
    (-(2 * m + 1 - t - 1) * (Real.sqrt (2 * (2 * m + 1 - t) * (2 * m + 1 - t - 1)))⁻¹) * Spec.scaledSum (fun i => U i ω) m (t - 1) +
    ((2 * m + 1 - t) * (Real.sqrt (2 * (2 * m + 1 - t) * (2 * m + 1 - t - 1)))⁻¹) * Spec.scaledSum (fun i => U i ω) m t := by
  funext ω
  rw [Spec.sumsFormFirst, if_neg ht]
  simp only [div_eq_mul_inv]
  ring

theorem firstForm_memLp (h : Spec.WhiteDraws μ U) (m t : Nat) : MemLp (fun ω => Spec.sumsFormFirst (fun i => U i ω) m t) 2 μ := by
  by_cases ht : t = 0
  · subst ht
    have : (fun ω => Spec.sumsFormFirst (fun i => U i ω) m 0) = fun ω => (Real.sqrt m)⁻¹ * Spec.scaledSum (fun i => U i ω) m 0 := by
      funext ω; rw [Spec.sumsFormFirst, if_pos rfl, div_eq_mul_inv, mul_comm]
    rw [this]
    exact (scaledSum_memLp h m 0).const_mul _
  · rw [firstForm_eq m t ht]
    exact memLp_lin3 (scaledSum_memLp h m _) (scaledSum_memLp h m _) (scaledSum_memLp h m _) _ _ _

/-- A repaired entry is uncorrelated with every earlier sum. -/
theorem firstForm_cov_sum (h : Spec.WhiteDraws μ U) (m s t : Nat) (hst : s < t) (htm : t < m) :
    cov[fun ω => Spec.scaledSum (fun i => U i ω) m s, fun ω => Spec.sumsFormFirst (fun i => U i ω) m t; μ] = 0 := by
  have hl := scaledSum_memLp h m
  rw [firstForm_eq m t (by omega), cov_lin3 (hl 0) (hl (t - 1)) (hl t) (hl s), covariance_comm, scaledSum_cov h m 0 s (by omega) (by omega),
    scaledSum_cov h m s (t - 1) (by omega) (by omega), scaledSum_cov h m s t (by omega) (by omega), Nat.cast_sub (by omega)]
  push_cast
  ring

theorem firstForm_cov_self_sum (h : Spec.WhiteDraws μ U) (m t : Nat) (ht : t ≠ 0) (htm : t < m) :
    cov[fun ω => Spec.scaledSum (fun i => U i ω) m t, fun ω => Spec.sumsFormFirst (fun i => U i ω) m t; μ] =
      2 * (2 * m + 1 - t - 1) * (Real.sqrt (2 * (2 * m + 1 - t) * (2 * m + 1 - t - 1)))⁻¹ := by
  have hl := scaledSum_memLp h m
  rw [firstForm_eq m t (by omega), cov_lin3 (hl 0) (hl (t - 1)) (hl t) (hl t), covariance_comm, scaledSum_cov h m 0 t (by omega) (by omega),
    covariance_comm, scaledSum_cov h m (t - 1) t (by omega) (by omega), scaledSum_cov h m t t (by omega) (by omega), Nat.cast_sub (by omega)]
  push_cast
  ring

theorem firstForm_cov_lt (h : Spec.WhiteDraws μ U) (m s t : Nat) (hst : s < t) (htm : t < m) :
    cov[fun ω => Spec.sumsFormFirst (fun i => U i ω) m t, fun ω => Spec.sumsFormFirst (fun i => U i ω) m s; μ] = 0 := by
  have hl := scaledSum_memLp h m
  have hf := firstForm_memLp h m
  have hz : ∀ j, j < t → cov[fun ω => Spec.sumsFormFirst (fun i => U i ω) m t, fun ω => Spec.scaledSum (fun i => U i ω) m j; μ] = 0 := by
    intro j hj; rw [covariance_comm]; exact firstForm_cov_sum h m j t hj htm
  by_cases hs : s = 0
  · subst hs
    have : (fun ω => Spec.sumsFormFirst (fun i => U i ω) m 0) = fun ω => (Real.sqrt m)⁻¹ * Spec.scaledSum (fun i => U i ω) m 0 := by
      funext ω; rw [Spec.sumsFormFirst, if_pos rfl, div_eq_mul_inv, mul_comm]
    rw [this, covariance_const_mul_right, hz 0 hst, mul_zero]
  · rw [firstForm_eq m s hs, cov_lin3 (hl 0) (hl (s - 1)) (hl s) (hf t), hz 0 (by omega), hz (s - 1) (by omega), hz s hst]
    ring

/-- **C70.** What the transformation of the sums test is meant to be: with the first sum in the third line the transformed sums of
uncorrelated uniform draws are uncorrelated with variance one. -/
theorem C70_intended (h : Spec.WhiteDraws μ U) (m s t : Nat) (hs : s < m) (ht : t < m) :
    cov[fun ω => Spec.sumsFormFirst (fun i => U i ω) m s, fun ω => Spec.sumsFormFirst (fun i => U i ω) m t; μ] =
      if s = t then 1 else 0 := by
  have hl := scaledSum_memLp h m
  have hf := firstForm_memLp h m
  rcases lt_trichotomy s t with hlt | heq | hgt
  · rw [if_neg (by omega), covariance_comm, firstForm_cov_lt h m s t hlt ht]
  · subst heq
    rw [if_pos rfl]
    by_cases h0 : s = 0
    · subst h0
      have e : (fun ω => Spec.sumsFormFirst (fun i => U i ω) m 0) = fun ω => (Real.sqrt m)⁻¹ * Spec.scaledSum (fun i => U i ω) m 0 := by
        funext ω; rw [Spec.sumsFormFirst, if_pos rfl, div_eq_mul_inv, mul_comm]
      have hm : (0 : ℝ) < m := by exact_mod_cast hs
      have hq := Real.mul_self_sqrt hm.le
      have hp := Real.sqrt_pos.2 hm
      rw [e, covariance_const_mul_right, covariance_const_mul_left, scaledSum_cov h m 0 0 (le_refl _) (by omega)]
      push_cast
      rw [← mul_assoc, ← mul_inv, hq]
      field_simp
      ring
    · have hsm : (s : ℝ) < m := by exact_mod_cast hs
      have hp : (0 : ℝ) < 2 * (2 * m + 1 - s) * (2 * m + 1 - s - 1) := by
        have : (0 : ℝ) ≤ s := by positivity
        nlinarith
      have hq := Real.mul_self_sqrt hp.le
      have hk := Real.sqrt_pos.2 hp
      have hz : ∀ j, j < s → cov[fun ω => Spec.sumsFormFirst (fun i => U i ω) m s, fun ω => Spec.scaledSum (fun i => U i ω) m j; μ] = 0 := by
        intro j hj; rw [covariance_comm]; exact firstForm_cov_sum h m j s hj hs
      have e := cov_lin3 (hl 0) (hl (s - 1)) (hl s) (hf s) ((Real.sqrt (2 * (2 * m + 1 - s) * (2 * m + 1 - s - 1)))⁻¹)
        (-(2 * m + 1 - s - 1) * (Real.sqrt (2 * (2 * m + 1 - s) * (2 * m + 1 - s - 1)))⁻¹)
        ((2 * m + 1 - s) * (Real.sqrt (2 * (2 * m + 1 - s) * (2 * m + 1 - s - 1)))⁻¹)
      rw [← firstForm_eq m s h0, hz 0 (by omega), hz (s - 1) (by omega), covariance_comm (X := fun ω => Spec.sumsFormFirst (fun i => U i ω) m s)
        (Y := fun ω => Spec.scaledSum (fun i => U i ω) m s), firstForm_cov_self_sum h m s h0 hs] at e
      rw [e]
      have : (2 * (m : ℝ) + 1 - s) * (Real.sqrt (2 * (2 * m + 1 - s) * (2 * m + 1 - s - 1)))⁻¹ *
          (2 * (2 * m + 1 - s - 1) * (Real.sqrt (2 * (2 * m + 1 - s) * (2 * m + 1 - s - 1)))⁻¹) =
          (2 * (2 * m + 1 - s) * (2 * m + 1 - s - 1)) *
          (Real.sqrt (2 * (2 * m + 1 - s) * (2 * m + 1 - s - 1)) * Real.sqrt (2 * (2 * m + 1 - s) * (2 * m + 1 - s - 1)))⁻¹ := by
        rw [mul_inv]; ring
      rw [this, hq, mul_inv_cancel₀ hp.ne']
      ring
  · rw [if_neg (by omega), firstForm_cov_lt h m t s hgt hs]

theorem sumsForm_first (u : ℕ → ℝ) (m t : Nat) (ht : t ≤ 2) (htm : t < m) : Spec.sumsForm u m t = Spec.sumsFormFirst u m t := by
  have hm : (t : ℝ) < m := by exact_mod_cast htm
  unfold Spec.sumsForm Spec.sumsFormFirst
  obtain rfl | rfl | rfl : t = 0 ∨ t = 1 ∨ t = 2 := by omega
  · simp
  · simp only [if_neg one_ne_zero, if_true, Nat.sub_self]
    push_cast at hm ⊢
    have e : (2 * (2 * (m : ℝ) + 1 - 1) * (2 * m + 1 - 1 - 1)) = 2 ^ 2 * (m * (2 * m - 1)) := by ring
    rw [e, Real.sqrt_mul (show (0 : ℝ) ≤ 2 ^ 2 by norm_num), Real.sqrt_sq (by norm_num)]
    have hp : 0 < Real.sqrt ((m : ℝ) * (2 * m - 1)) := Real.sqrt_pos.2 (by nlinarith)
    field_simp
    ring
  · simp

/-- **C70.** The first three entries the code computes are uncorrelated with variance one. -/
theorem C70_first_three (h : Spec.WhiteDraws μ U) (m s t : Nat) (hs : s ≤ 2) (ht : t ≤ 2) (hsm : s < m) (htm : t < m) :
    cov[fun ω => Spec.sumsForm (fun i => U i ω) m s, fun ω => Spec.sumsForm (fun i => U i ω) m t; μ] = if s = t then 1 else 0 := by
  rw [← C70_intended h m s t hsm htm]
  simp_rw [sumsForm_first _ m s hs hsm, sumsForm_first _ m t ht htm]

theorem form_eq (m t : Nat) (ht : 2 ≤ t) : (fun ω => Spec.sumsForm (fun i => U i ω) m t) = fun ω =>
    (Real.sqrt (2 * (2 * m + 1 - t) * (2 * m + 1 - t - 1)))⁻¹ * Spec.scaledSum (fun i => U i ω) m (t - 2) +
    (-(2 * m + 1 - t - 1) * (Real.sqrt (2 * (2 * m + 1 - t) * (2 * m + 1 - t - 1)))⁻¹) * Spec.scaledSum (fun i => U i ω) m (t - 1) +
    ((2 * m + 1 - t) * (Real.sqrt (2 * (2 * m + 1 - t) * (2 * m + 1 - t - 1)))⁻¹) * Spec.scaledSum (fun i => U i ω) m t := by
  funext ω
  rw [Spec.sumsForm, if_neg (by omega), if_neg (by omega)]
  simp only [div_eq_mul_inv]
  ring

/-- **C70.** Entry `t ≥ 2` of the code has this covariance with the sums the earlier entries are made of; it is not zero. -/
theorem C70_cov_sum (h : Spec.WhiteDraws μ U) (m s t : Nat) (hst : s + 2 ≤ t) (htm : t < m) :
    cov[fun ω => Spec.scaledSum (fun i => U i ω) m s, fun ω => Spec.sumsForm (fun i => U i ω) m t; μ] =
      (2 * s + 2 - t) / Real.sqrt (2 * (2 * m + 1 - t) * (2 * m + 1 - t - 1)) := by
  have hl := scaledSum_memLp h m
  rw [form_eq m t (by omega), cov_lin3 (hl (t - 2)) (hl (t - 1)) (hl t) (hl s), scaledSum_cov h m s (t - 2) (by omega) (by omega),
    scaledSum_cov h m s (t - 1) (by omega) (by omega), scaledSum_cov h m s t (by omega) (by omega), Nat.cast_sub (by omega),
    Nat.cast_sub (by omega), div_eq_mul_inv]
  push_cast
  ring

/-- **C70, negation of the intended claim.** From the fourth entry on, the entries of the code are correlated with the first one, and
their variance exceeds one. -/
theorem C70_correlated (h : Spec.WhiteDraws μ U) (m t : Nat) (ht : 3 ≤ t) (htm : t < m) :
    cov[fun ω => Spec.sumsForm (fun i => U i ω) m 0, fun ω => Spec.sumsForm (fun i => U i ω) m t; μ] < 0 ∧
    cov[fun ω => Spec.sumsForm (fun i => U i ω) m t, fun ω => Spec.sumsForm (fun i => U i ω) m t; μ] =
      1 + (t - 2 : ℝ) / ((2 * m + 1 - t) * (2 * m - t)) := by
  have hl := scaledSum_memLp h m
  have htm' : (t : ℝ) < m := by exact_mod_cast htm
  have ht' : (3 : ℝ) ≤ t := by exact_mod_cast ht
  have hp : (0 : ℝ) < 2 * (2 * m + 1 - t) * (2 * m + 1 - t - 1) := by nlinarith
  have hq := Real.mul_self_sqrt hp.le
  have hk := Real.sqrt_pos.2 hp
  constructor
  · have e : (fun ω => Spec.sumsForm (fun i => U i ω) m 0) = fun ω => (Real.sqrt m)⁻¹ * Spec.scaledSum (fun i => U i ω) m 0 := by
      funext ω; rw [Spec.sumsForm, if_pos rfl, div_eq_mul_inv, mul_comm]
    rw [e, covariance_const_mul_left, C70_cov_sum h m 0 t (by omega) htm]
    have h1 : (0 : ℝ) < (Real.sqrt m)⁻¹ := inv_pos.2 (Real.sqrt_pos.2 (by linarith))
    apply mul_neg_of_pos_of_neg h1
    apply div_neg_of_neg_of_pos _ hk
    push_cast
    linarith
  · have hf : MemLp (fun ω => Spec.sumsForm (fun i => U i ω) m t) 2 μ := by
      rw [form_eq m t (by omega)]
      exact memLp_lin3 (hl _) (hl _) (hl _) _ _ _
    have c0 := C70_cov_sum h m (t - 2) t (by omega) htm
    have c1 : cov[fun ω => Spec.scaledSum (fun i => U i ω) m (t - 1), fun ω => Spec.sumsForm (fun i => U i ω) m t; μ] =
        (t - 2) * (Real.sqrt (2 * (2 * m + 1 - t) * (2 * m + 1 - t - 1)))⁻¹ := by
      rw [form_eq m t (by omega), cov_lin3 (hl (t - 2)) (hl (t - 1)) (hl t) (hl (t - 1)), covariance_comm,
        scaledSum_cov h m (t - 2) (t - 1) (by omega) (by omega), scaledSum_cov h m (t - 1) (t - 1) (by omega) (by omega),
        scaledSum_cov h m (t - 1) t (by omega) (by omega), Nat.cast_sub (by omega), Nat.cast_sub (by omega)]
      push_cast
      ring
    have c2 : cov[fun ω => Spec.scaledSum (fun i => U i ω) m t, fun ω => Spec.sumsForm (fun i => U i ω) m t; μ] =
        (4 * m - t - 2) * (Real.sqrt (2 * (2 * m + 1 - t) * (2 * m + 1 - t - 1)))⁻¹ := by
      rw [form_eq m t (by omega), cov_lin3 (hl (t - 2)) (hl (t - 1)) (hl t) (hl t), covariance_comm,
        scaledSum_cov h m (t - 2) t (by omega) (by omega), covariance_comm, scaledSum_cov h m (t - 1) t (by omega) (by omega),
        scaledSum_cov h m t t (by omega) (by omega), Nat.cast_sub (by omega), Nat.cast_sub (by omega)]
      push_cast
      ring
    have e := cov_lin3 (hl (t - 2)) (hl (t - 1)) (hl t) hf ((Real.sqrt (2 * (2 * m + 1 - t) * (2 * m + 1 - t - 1)))⁻¹)
        (-(2 * m + 1 - t - 1) * (Real.sqrt (2 * (2 * m + 1 - t) * (2 * m + 1 - t - 1)))⁻¹)
        ((2 * m + 1 - t) * (Real.sqrt (2 * (2 * m + 1 - t) * (2 * m + 1 - t - 1)))⁻¹)
    rw [← form_eq m t (by omega), covariance_comm (Y := fun ω => Spec.scaledSum (fun i => U i ω) m (t - 2)), c0,
      covariance_comm (Y := fun ω => Spec.scaledSum (fun i => U i ω) m (t - 1)), c1,
      covariance_comm (Y := fun ω => Spec.scaledSum (fun i => U i ω) m t), c2] at e
    rw [e, Nat.cast_sub (by omega)]
    have hpos1 : (2 * (m : ℝ) + 1 - t) ≠ 0 := by linarith
    have hpos2 : (2 * (m : ℝ) - t) ≠ 0 := by linarith
    rw [show (2 * (m : ℝ) + 1 - t - 1) = 2 * m - t by ring] at hq hk ⊢
    generalize hgen : Real.sqrt (2 * (2 * (m : ℝ) + 1 - t) * (2 * m - t)) = k at hq hk ⊢
    have hk' : k⁻¹ * k⁻¹ = (2 * (2 * (m : ℝ) + 1 - t) * (2 * m - t))⁻¹ := by rw [← mul_inv, hq]
    have : k⁻¹ * ((2 * ((t : ℝ) - (2 : ℕ)) + 2 - t) / k) + -(2 * m - t) * k⁻¹ * ((t - 2) * k⁻¹) +
        (2 * m + 1 - t) * k⁻¹ * ((4 * m - t - 2) * k⁻¹) =
        ((t - 2) - (2 * m - t) * (t - 2) + (2 * m + 1 - t) * (4 * m - t - 2)) * (k⁻¹ * k⁻¹) := by
      push_cast
      rw [div_eq_mul_inv]
      ring
    rw [this, hk']
    field_simp
    ring

end

section
variable {Ω : Type*} [MeasurableSpace Ω] {μ : Measure Ω} [IsProbabilityMeasure μ] {U : ℕ → Ω → ℝ}

/-- **C70**, the hypothesis: independent draws that are uniform on the unit interval are white draws. -/
theorem C70_uniform_draws (hm : ∀ i, Measurable (U i)) (hlaw : ∀ i, μ.map (U i) = volume.restrict (Set.Icc 0 1))
    (hind : iIndepFun U μ) : Spec.WhiteDraws μ U := by
  have hl : ∀ i, MemLp (U i) 2 μ := by
    intro i
    have h1 : MemLp (id : ℝ → ℝ) 2 (μ.map (U i)) := by
      rw [hlaw]
      refine MemLp.of_bound measurable_id.aestronglyMeasurable 1 ?_
      rw [ae_restrict_iff' measurableSet_Icc]
      refine Filter.Eventually.of_forall ?_
      intro x hx
      rw [id, Real.norm_eq_abs, abs_le]
      exact ⟨by linarith [hx.1], hx.2⟩
    exact (memLp_map_measure_iff measurable_id.aestronglyMeasurable (hm i).aemeasurable).1 h1
  refine ⟨hl, ?_⟩
  intro i j
  by_cases hij : i = j
  · subst hij
    rw [if_pos rfl, covariance_eq_sub (hl i) (hl i)]
    have e1 : ∫ ω, (U i * U i) ω ∂μ = ∫ x in Set.Icc (0 : ℝ) 1, x * x := by
      rw [← hlaw i, integral_map (hm i).aemeasurable (by fun_prop)]
      rfl
    have e2 : ∫ ω, U i ω ∂μ = ∫ x in Set.Icc (0 : ℝ) 1, x := by
      rw [← hlaw i, integral_map (hm i).aemeasurable (by fun_prop)]
    rw [e1, e2, integral_Icc_eq_integral_Ioc, integral_Icc_eq_integral_Ioc, ← intervalIntegral.integral_of_le zero_le_one,
      ← intervalIntegral.integral_of_le zero_le_one]
    have e3 : ∫ x in (0 : ℝ)..1, x * x = 1 / 3 := by
      have : ∀ x : ℝ, x * x = x ^ 2 := fun x => by ring
      simp_rw [this, integral_pow]
      norm_num
    rw [e3, integral_id]
    norm_num
  · rw [if_neg hij]
    exact (hind.indepFun hij).covariance_eq_zero (hl i) (hl j)
end

/-- Such draws exist: the coordinates of the infinite product of unit intervals. -/
example : ∃ (Ω : Type) (_ : MeasurableSpace Ω) (μ : Measure Ω) (_ : IsProbabilityMeasure μ) (U : ℕ → Ω → ℝ), Spec.WhiteDraws μ U := by
  have hp : IsProbabilityMeasure (volume.restrict (Set.Icc (0 : ℝ) 1)) := ⟨by simp⟩
  refine ⟨ℕ → ℝ, inferInstance, Measure.infinitePi (fun _ : ℕ => volume.restrict (Set.Icc (0 : ℝ) 1)), inferInstance,
    fun i ω => ω i, ?_⟩
  refine C70_uniform_draws (fun i => measurable_pi_apply i) ?_ ?_
  · intro i
    exact Measure.infinitePi_map_eval (fun _ : ℕ => volume.restrict (Set.Icc (0 : ℝ) 1)) i
  · exact iIndepFun_infinitePi (P := fun _ : ℕ => volume.restrict (Set.Icc (0 : ℝ) 1)) (X := fun _ x => x) (fun i => measurable_id)

/-- The windows of length 3 of the draws 0, 1, 2, ... -/
example : Spec.windowSum (fun i => (i : ℝ)) 3 0 = 3 ∧ Spec.windowSum (fun i => (i : ℝ)) 3 2 = 9 := by
  constructor <;> norm_num [Spec.windowSum, Finset.sum_range_succ]

end Dh
