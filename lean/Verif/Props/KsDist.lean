import Verif.Model.KsDist
import Verif.Props.MPower
import Verif.Props.Kstest
import Mathlib.Analysis.SpecificLimits.Normed
import Mathlib.Data.Nat.Factorial.Basic
import Mathlib.Algebra.Order.Floor.Ring
import Mathlib.Data.Rat.Floor
import Mathlib.Tactic.Positivity
import Mathlib.Analysis.Complex.ExponentialBounds
/-
C75, C76: the distribution functions of the Kolmogorov-Smirnov test.
-/
namespace Dh

variable {F : Type*} [Field F] [LinearOrder F] [IsStrictOrderedRing F]

/-! ### C75: `q_ks` -/

namespace Spec

/-- The asymptotic distribution of Kolmogorov, `Q(x) = 2 Σ_{i ≥ 1} (-1)^(i-1) exp(-2 i² x²)`. -/
noncomputable def kolmogorovQ (x : ℝ) : ℝ := 2 * ∑' i : ℕ, (-1 : ℝ) ^ i * Real.exp (-2 * ((i + 1) * x) ^ 2)

end Spec

theorem qKsLoop_spec (kappa : ℝ) : ∀ (todo i : Nat) (qsum : ℝ),
    qKsLoop kappa todo (i + 1) ((-1) ^ (i + 1)) qsum =
      qsum + ∑ t ∈ Finset.range todo, (-1) ^ (i + t) * Real.exp (kappa * ((i + t : ℕ) + 1) ^ 2) := by
  intro todo
  induction todo with
  | zero => intro i q; rw [qKsLoop, Finset.sum_range_zero, add_zero]
  | succ todo ih =>
    intro i q
    rw [qKsLoop]
    have h := ih (i + 1) (q + ((((-1) ^ (i + 1) * -1 : ℤ)) : ℝ) * Real.exp (kappa * ((i + 1 : ℕ) : ℝ) * ((i + 1 : ℕ) : ℝ)))
    rw [pow_succ (-1 : ℤ) (i + 1)] at h
    rw [h, Finset.sum_range_succ', add_assoc]
    congr 1
    rw [add_comm]
    congr 1
    · refine Finset.sum_congr rfl fun t _ => ?_
      rw [show i + 1 + t = i + (t + 1) by omega]
    · push_cast
      rw [add_zero, pow_succ, add_zero]
      ring_nf

theorem qKs_sum (x : ℝ) : qKs x = 2 * ∑ i ∈ Finset.range 99, (-1 : ℝ) ^ i * Real.exp (-2 * ((i + 1) * x) ^ 2) := by
  have h := qKsLoop_spec (-2 * x * x) 99 0 0
  rw [zero_add, pow_one, zero_add] at h
  rw [qKs, h]
  congr 1
  refine Finset.sum_congr rfl fun t _ => ?_
  rw [zero_add]
  congr 2
  ring

theorem kolm_antitone (x : ℝ) : Antitone fun i : ℕ => Real.exp (-2 * ((i + 1) * x) ^ 2) := by
  intro a b hab
  have : (a : ℝ) ≤ b := by exact_mod_cast hab
  have ha : (0 : ℝ) ≤ a := Nat.cast_nonneg a
  refine Real.exp_le_exp.2 ?_
  rw [mul_pow, mul_pow]
  have h1 : ((a : ℝ) + 1) ^ 2 ≤ (b + 1) ^ 2 := by gcongr
  nlinarith [mul_le_mul_of_nonneg_right h1 (sq_nonneg x)]

theorem alt_bounds {f : ℕ → ℝ} (hf : Antitone f) (h0 : ∀ i, 0 ≤ f i) : ∀ n,
    f 0 - f 1 ≤ ∑ i ∈ Finset.range (2 * n + 2), (-1 : ℝ) ^ i * f i ∧
    ∑ i ∈ Finset.range (2 * n + 1), (-1 : ℝ) ^ i * f i ≤ f 0 ∧
    f 0 - f 1 ≤ ∑ i ∈ Finset.range (2 * n + 1), (-1 : ℝ) ^ i * f i := by
  intro n
  induction n with
  | zero =>
    simp only [Nat.mul_zero, Nat.zero_add, Finset.sum_range_succ, Finset.sum_range_zero, pow_zero, pow_one, zero_add, one_mul]
    refine ⟨by linarith, le_refl _, by linarith [h0 1]⟩
  | succ n ih =>
    have e1 : ∑ i ∈ Finset.range (2 * (n + 1) + 1), (-1 : ℝ) ^ i * f i =
        ∑ i ∈ Finset.range (2 * n + 1), (-1 : ℝ) ^ i * f i - f (2 * n + 1) + f (2 * n + 2) := by
      rw [show 2 * (n + 1) + 1 = 2 * n + 1 + 1 + 1 by ring, Finset.sum_range_succ, Finset.sum_range_succ,
        show (-1 : ℝ) ^ (2 * n + 1) = -1 by rw [pow_succ, pow_mul]; simp, show (-1 : ℝ) ^ (2 * n + 1 + 1) = 1 by
          rw [show 2 * n + 1 + 1 = 2 * (n + 1) by ring, pow_mul]; simp]
      ring
    have e2 : ∑ i ∈ Finset.range (2 * (n + 1) + 2), (-1 : ℝ) ^ i * f i =
        ∑ i ∈ Finset.range (2 * n + 2), (-1 : ℝ) ^ i * f i + f (2 * n + 2) - f (2 * n + 3) := by
      rw [show 2 * (n + 1) + 2 = 2 * n + 2 + 1 + 1 by ring, Finset.sum_range_succ, Finset.sum_range_succ,
        show (-1 : ℝ) ^ (2 * n + 2) = 1 by rw [show 2 * n + 2 = 2 * (n + 1) by ring, pow_mul]; simp,
        show (-1 : ℝ) ^ (2 * n + 2 + 1) = -1 by rw [show 2 * n + 2 + 1 = 2 * (n + 1) + 1 by ring, pow_succ, pow_mul]; simp]
      ring
    have e3 : ∑ i ∈ Finset.range (2 * (n + 1) + 2), (-1 : ℝ) ^ i * f i =
        ∑ i ∈ Finset.range (2 * (n + 1) + 1), (-1 : ℝ) ^ i * f i - f (2 * n + 3) := by
      rw [show 2 * (n + 1) + 2 = 2 * n + 3 + 1 by ring, Finset.sum_range_succ, show 2 * (n + 1) + 1 = 2 * n + 3 by ring,
        show (-1 : ℝ) ^ (2 * n + 3) = -1 by rw [show 2 * n + 3 = 2 * (n + 1) + 1 by ring, pow_succ, pow_mul]; simp]
      ring
    have h1 := hf (show 2 * n + 1 ≤ 2 * n + 2 by omega)
    have h2 := hf (show 2 * n + 2 ≤ 2 * n + 3 by omega)
    refine ⟨by rw [e2]; linarith [ih.1], by rw [e1]; linarith [ih.2.1], ?_⟩
    have := ih.1
    rw [e2] at e3
    linarith [h0 (2 * n + 3)]

/-- **C75.** `q_ks` lies between the first two partial sums of the series. -/
theorem C75_bounds (x : ℝ) : 2 * (Real.exp (-2 * x ^ 2) - Real.exp (-8 * x ^ 2)) ≤ qKs x ∧ qKs x ≤ 2 * Real.exp (-2 * x ^ 2) := by
  have h := alt_bounds (kolm_antitone x) (fun _ => (Real.exp_pos _).le) 49
  have e0 : -2 * ((((0 : ℕ) : ℝ) + 1) * x) ^ 2 = -2 * x ^ 2 := by push_cast; ring
  have e1 : -2 * ((((1 : ℕ) : ℝ) + 1) * x) ^ 2 = -8 * x ^ 2 := by push_cast; ring
  rw [e0, e1] at h
  rw [qKs_sum]
  constructor
  · linarith [h.2.2]
  · linarith [h.2.1]

theorem kolm_summable (x : ℝ) (hx : x ≠ 0) : Summable fun i : ℕ => Real.exp (-2 * ((i + 1) * x) ^ 2) := by
  have hx2 : 0 < x ^ 2 := by positivity
  have hr : Real.exp (-2 * x ^ 2) < 1 := Real.exp_lt_one_iff.2 (by linarith)
  refine Summable.of_nonneg_of_le (fun _ => (Real.exp_pos _).le) (fun i => ?_) (summable_geometric_of_lt_one (Real.exp_pos _).le hr)
  rw [← Real.exp_nat_mul]
  refine Real.exp_le_exp.2 ?_
  have hi : (0 : ℝ) ≤ i := Nat.cast_nonneg i
  rw [mul_pow]
  nlinarith [mul_nonneg hi hx2.le, mul_nonneg (mul_nonneg hi hi) hx2.le]

/-- **C75.** For `x ≠ 0` the series of Kolmogorov converges, and `q_ks` exceeds its value by at most `2 exp(-20000 x²)`. -/
theorem C75_error (x : ℝ) (hx : x ≠ 0) :
    Summable (fun i : ℕ => (-1 : ℝ) ^ i * Real.exp (-2 * ((i + 1) * x) ^ 2)) ∧
    0 ≤ qKs x - Spec.kolmogorovQ x ∧ qKs x - Spec.kolmogorovQ x ≤ 2 * Real.exp (-20000 * x ^ 2) := by
  have hs : Summable (fun i : ℕ => (-1 : ℝ) ^ i * Real.exp (-2 * ((i + 1) * x) ^ 2)) := by
    refine Summable.of_norm ?_
    refine (kolm_summable x hx).congr fun i => ?_
    rw [norm_mul, norm_pow, norm_neg, norm_one, one_pow, one_mul, Real.norm_eq_abs, abs_of_pos (Real.exp_pos _)]
  have ht := hs.hasSum.tendsto_sum_nat
  have h1 := (kolm_antitone x).tendsto_le_alternating_series ht 49
  have h2 := (kolm_antitone x).alternating_series_le_tendsto ht 50
  have e : ∑ i ∈ Finset.range (2 * 50), (-1 : ℝ) ^ i * Real.exp (-2 * ((i + 1) * x) ^ 2) =
      ∑ i ∈ Finset.range 99, (-1 : ℝ) ^ i * Real.exp (-2 * ((i + 1) * x) ^ 2) - Real.exp (-20000 * x ^ 2) := by
    rw [show 2 * 50 = 99 + 1 by norm_num, Finset.sum_range_succ, show (-1 : ℝ) ^ 99 = -1 by rw [Odd.neg_one_pow]; decide, neg_one_mul,
      ← sub_eq_add_neg]
    congr 2
    push_cast
    ring
  rw [e] at h2
  rw [show 2 * 49 + 1 = 99 by norm_num] at h1
  rw [qKs_sum, Spec.kolmogorovQ]
  exact ⟨hs, by linarith, by linarith⟩

/-- **C75, failure.** At 0 the value is 2, which is no probability. -/
theorem C75_zero : qKs 0 = 2 := by
  rw [qKs_sum]
  have : ∀ i : ℕ, Real.exp (-2 * (((i : ℝ) + 1) * 0) ^ 2) = 1 := fun i => by rw [mul_zero]; norm_num
  simp only [this, mul_one]
  have h : ∀ n, ∑ i ∈ Finset.range (2 * n + 1), (-1 : ℝ) ^ i = 1 := by
    intro n
    induction n with
    | zero => simp
    | succ n ih =>
      rw [show 2 * (n + 1) + 1 = 2 * n + 1 + 1 + 1 by ring, Finset.sum_range_succ, Finset.sum_range_succ, ih, pow_succ _ (2 * n + 1)]
      ring
  rw [show 99 = 2 * 49 + 1 by norm_num, h, mul_one]

/-- **C75, failure.** Evenly spaced p-values, in whatever order, have distance 0 by the statistic of `kstest`, and for a large count
the function therefore returns 2. -/
theorem C75_even_spacing (n : Nat) (hn : 2 ≤ n) (xs : List F) (h : xs.Perm ((List.range n).map fun i : ℕ => ((i + 1 : ℕ) : F) / (n + 1))) :
    (∀ K, ∃ s, kstest K xs n = .ok (K n 0, s)) ∧ ksAsymptotic n 0 = 2 := by
  have hl : xs.length = n := by rw [h.length_eq]; simp
  refine ⟨fun K => ?_, by rw [ksAsymptotic, mul_zero, C75_zero]⟩
  obtain ⟨s, D, h1, h2, h3, h4, h5, -⟩ := C17_kstest_statistic K xs (by omega)
  have hs : s = (List.range n).map fun i : ℕ => ((i + 1 : ℕ) : F) / (n + 1) := by
    refine (h2.trans h).eq_of_pairwise' h3 ?_
    rw [List.pairwise_map]
    refine List.pairwise_lt_range.imp fun {a b} hab => ?_
    have : (a : F) ≤ b := by exact_mod_cast hab.le
    push_cast
    gcongr
  have hD : D = 0 := by
    obtain ⟨⟨j, hj, e⟩, -⟩ := h4
    rw [e]
    subst hs
    simp [hl]
  rw [hl] at h1
  exact ⟨s, by rw [h1, hD]⟩

example : Spec.kolmogorovQ 1 ≤ qKs 1 ∧ qKs 1 < 0.271 := by
  have h := C75_error 1 one_ne_zero
  have h2 := (C75_bounds 1).2
  have h3 : Real.exp (-2 * 1 ^ 2) < 0.1354 := by
    rw [show (-2 * 1 ^ 2 : ℝ) = -1 + -1 by norm_num, Real.exp_add]
    have := Real.exp_neg_one_lt_d9
    have h0 := Real.exp_pos (-1)
    nlinarith
  refine ⟨by linarith [h.2.1], ?_⟩
  generalize Real.exp (-2 * 1 ^ 2) = y at h2 h3
  norm_num at h3 ⊢
  linarith

/-! ### C76: `p_ks_new` -/

namespace Spec

/-- The matrix of Marsaglia, Tsang and Wang ("Evaluating Kolmogorov's distribution", J. Stat. Software 8 (2003)). -/
def mtwMatrix (m : Nat) (h : F) : Matrix (Fin m) (Fin m) F := fun i j =>
  if i.val + 1 < j.val then 0 else
  (1 - (if j.val = 0 then h ^ (i.val + 1) else 0) - (if i.val + 1 = m then h ^ (m - j.val) else 0) +
    (if i.val + 1 = m ∧ j.val = 0 then max (2 * h - 1) 0 ^ m else 0)) / (i.val + 1 - j.val).factorial

end Spec

/-- Entry of a matrix stored in row order. -/
def ent (m : Nat) (H : List F) (a b : Nat) : F := H.getD (a * m + b) 0

theorem rd_ent {m : Nat} {H : List F} (hH : H.length = m * m) {i j : Nat} (hi : i < m) (hj : j < m) :
    rd H (i * m + j) = .ok (ent m H i j) := by
  have h : i * m + j < H.length := hH ▸ idx_lt hi hj
  rw [rd_ok h, ent, List.getD_eq_getElem?_getD, List.getElem?_eq_getElem h, Option.getD_some]

theorem wr_ent {m : Nat} {H : List F} (hH : H.length = m * m) {i j : Nat} (hi : i < m) (hj : j < m) (v : F) :
    ∃ H', wr H (i * m + j) v = .ok H' ∧ H'.length = m * m ∧ ∀ a b, b < m →
      ent m H' a b = if a = i ∧ b = j then v else ent m H a b := by
  have h : i * m + j < H.length := hH ▸ idx_lt hi hj
  refine ⟨H.set (i * m + j) v, by rw [wr, if_pos h], by simpa using hH, fun a b hb => ?_⟩
  simp only [ent, List.getD_eq_getElem?_getD, List.getElem?_set]
  by_cases e : i * m + j = a * m + b
  · obtain ⟨rfl, rfl⟩ := idx_inj hj hb e
    simp [h]
  · rw [if_neg e, if_neg]
    rintro ⟨rfl, rfl⟩
    exact e rfl

theorem ksInitJ_spec (m i : Nat) (hi : i < m) : ∀ (todo j : Nat) (H : List F), j + todo = m → H.length = m * m →
    ∃ H', ksInitJ m i todo j H = .ok H' ∧ H'.length = m * m ∧ ∀ a b, b < m →
      ent m H' a b = if a = i ∧ j ≤ b then (if i + 1 < b then 0 else 1) else ent m H a b := by
  intro todo
  induction todo with
  | zero => intro j H hj hH; exact ⟨H, rfl, hH, fun a b hb => by rw [if_neg (by omega)]⟩
  | succ todo ih =>
    intro j H hj hH
    obtain ⟨H1, h1, h2, h3⟩ := wr_ent hH hi (show j < m by omega) (if (i : ℤ) - j + 1 < 0 then 0 else 1)
    obtain ⟨H2, g1, g2, g3⟩ := ih (j + 1) H1 (by omega) h2
    refine ⟨H2, by rw [ksInitJ, h1, Res.bind_ok, g1], g2, fun a b hb => ?_⟩
    rw [g3 a b hb, h3 a b hb]
    by_cases e : a = i ∧ b = j
    · obtain ⟨rfl, rfl⟩ := e
      rw [if_neg (by omega : ¬ (a = a ∧ b + 1 ≤ b)), if_pos (⟨rfl, rfl⟩ : a = a ∧ b = b), if_pos (⟨rfl, le_refl _⟩ : a = a ∧ b ≤ b)]
      exact if_congr (by omega) rfl rfl
    · rw [if_neg e]
      exact if_congr (by omega) rfl rfl

theorem ksInitI_spec (m : Nat) : ∀ (todo i : Nat) (H : List F), i + todo = m → H.length = m * m →
    ∃ H', ksInitI m todo i H = .ok H' ∧ H'.length = m * m ∧ ∀ a b, a < m → b < m →
      ent m H' a b = if i ≤ a then (if a + 1 < b then 0 else 1) else ent m H a b := by
  intro todo
  induction todo with
  | zero => intro i H hi hH; exact ⟨H, rfl, hH, fun a b ha hb => by rw [if_neg (by omega)]⟩
  | succ todo ih =>
    intro i H hi hH
    obtain ⟨H1, h1, h2, h3⟩ := ksInitJ_spec m i (by omega) m 0 H (by omega) hH
    obtain ⟨H2, g1, g2, g3⟩ := ih (i + 1) H1 (by omega) h2
    refine ⟨H2, by rw [ksInitI, h1, Res.bind_ok, g1], g2, fun a b ha hb => ?_⟩
    rw [g3 a b ha hb, h3 a b hb]
    by_cases e : a = i
    · subst e
      rw [if_neg (by omega), if_pos ⟨rfl, Nat.zero_le _⟩, if_pos (le_refl _)]
    · by_cases q : i + 1 ≤ a
      · rw [if_pos q, if_pos (by omega : i ≤ a)]
      · rw [if_neg q, if_neg (by omega : ¬ (a = i ∧ 0 ≤ b)), if_neg (by omega : ¬ i ≤ a)]

theorem ksBorder_spec (m : Nat) (h : F) : ∀ (todo i : Nat) (H : List F), i + todo = m → H.length = m * m →
    ∃ H', ksBorder m h todo i H = .ok H' ∧ H'.length = m * m ∧ ∀ a b, a < m → b < m →
      ent m H' a b = ent m H a b - (if b = 0 ∧ i ≤ a then h ^ (a + 1) else 0) - (if a + 1 = m ∧ i ≤ b then h ^ (m - b) else 0) := by
  intro todo
  induction todo with
  | zero =>
    intro i H hi hH
    exact ⟨H, rfl, hH, fun a b ha hb => by rw [if_neg (by omega), if_neg (by omega), sub_zero, sub_zero]⟩
  | succ todo ih =>
    intro i H hi hH
    have hm : 0 < m := by omega
    obtain ⟨H1, h1, h2, h3⟩ := wr_ent hH (show i < m by omega) hm (ent m H i 0 - h ^ (i + 1))
    obtain ⟨H2, f1, f2, f3⟩ := wr_ent h2 (show m - 1 < m by omega) (show i < m by omega) (ent m H1 (m - 1) i - h ^ (m - i))
    obtain ⟨H3, g1, g2, g3⟩ := ih (i + 1) H2 (by omega) f2
    have e0 := rd_ent hH (show i < m by omega) hm
    rw [add_zero] at e0 h1
    refine ⟨H3, by rw [ksBorder, e0, Res.bind_ok, h1, Res.bind_ok, rd_ent h2 (by omega) (by omega), Res.bind_ok, f1, Res.bind_ok, g1],
      g2, fun a b ha hb => ?_⟩
    rw [g3 a b ha hb, f3 a b hb]
    have hx : (if b = 0 ∧ i ≤ a then h ^ (a + 1) else 0) =
        (if b = 0 ∧ i + 1 ≤ a then h ^ (a + 1) else 0) + (if a = i ∧ b = 0 then h ^ (i + 1) else 0) := by
      by_cases e : a = i ∧ b = 0
      · rw [if_pos ⟨e.2, by omega⟩, if_neg (by omega), if_pos e, e.1, zero_add]
      · rw [if_neg e, add_zero]
        exact if_congr (by omega) rfl rfl
    have hy : (if a + 1 = m ∧ i ≤ b then h ^ (m - b) else 0) =
        (if a + 1 = m ∧ i + 1 ≤ b then h ^ (m - b) else 0) + (if a = m - 1 ∧ b = i then h ^ (m - i) else 0) := by
      by_cases e : a = m - 1 ∧ b = i
      · rw [if_pos ⟨by omega, by omega⟩, if_neg (by omega), if_pos e, e.2, zero_add]
      · rw [if_neg e, add_zero]
        exact if_congr (by omega) rfl rfl
    have hz : ent m H1 a b = ent m H a b - (if a = i ∧ b = 0 then h ^ (i + 1) else 0) := by
      rw [h3 a b hb]
      split
      · rename_i q; rw [q.1, q.2]
      · rw [sub_zero]
    have hw : (if a = m - 1 ∧ b = i then ent m H1 (m - 1) i - h ^ (m - i) else ent m H1 a b) =
        ent m H1 a b - (if a = m - 1 ∧ b = i then h ^ (m - i) else 0) := by
      split
      · rename_i q; rw [q.1, q.2]
      · rw [sub_zero]
    rw [hx, hy, hw, hz]
    ring

theorem ksDivG_spec (m i j : Nat) (hi : i < m) (hj : j < m) : ∀ (todo g : Nat) (H : List F), H.length = m * m →
    ∃ H', ksDivG (i * m + j) todo (g + 1) H = .ok H' ∧ H'.length = m * m ∧ ∀ a b, b < m →
      ent m H' a b = if a = i ∧ b = j then ent m H i j * g.factorial / (g + todo).factorial else ent m H a b := by
  intro todo
  induction todo with
  | zero =>
    intro g H hH
    refine ⟨H, rfl, hH, fun a b hb => ?_⟩
    split
    · rename_i q
      rw [q.1, q.2, add_zero, mul_div_assoc, div_self (by positivity), mul_one]
    · rfl
  | succ todo ih =>
    intro g H hH
    obtain ⟨H1, h1, h2, h3⟩ := wr_ent hH hi hj (ent m H i j / ((g + 1 : ℕ) : F))
    obtain ⟨H2, g1, g2, g3⟩ := ih (g + 1) H1 h2
    refine ⟨H2, by rw [ksDivG, rd_ent hH hi hj, Res.bind_ok, h1, Res.bind_ok, g1], g2, fun a b hb => ?_⟩
    rw [g3 a b hb, h3 a b hb, h3 i j hj]
    split
    · rename_i q
      rw [if_pos ⟨rfl, rfl⟩, show g + 1 + todo = g + (todo + 1) by omega, Nat.factorial_succ g]
      congr 1
      push_cast
      field_simp
    · rfl

theorem ksDivJ_spec (m i : Nat) (hi : i < m) : ∀ (todo j : Nat) (H : List F), j + todo = m → H.length = m * m →
    ∃ H', ksDivJ m i todo j H = .ok H' ∧ H'.length = m * m ∧ ∀ a b, b < m →
      ent m H' a b = if a = i ∧ j ≤ b then ent m H i b / (i + 1 - b).factorial else ent m H a b := by
  intro todo
  induction todo with
  | zero => intro j H hj hH; exact ⟨H, rfl, hH, fun a b hb => by rw [if_neg (by omega)]⟩
  | succ todo ih =>
    intro j H hj hH
    obtain ⟨H1, h1, h2, h3⟩ : ∃ H', (if (i : ℤ) - j + 1 > 0 then ksDivG (i * m + j) ((i : ℤ) - j + 1).toNat 1 H else .ok H : Res (List F)) =
        .ok H' ∧ H'.length = m * m ∧ ∀ a b, b < m →
        ent m H' a b = if a = i ∧ b = j then ent m H i j / (i + 1 - j).factorial else ent m H a b := by
      by_cases hp : (i : ℤ) - j + 1 > 0
      · obtain ⟨H1, h1, h2, h3⟩ := ksDivG_spec m i j hi (by omega) ((i : ℤ) - j + 1).toNat 0 H hH
        refine ⟨H1, by rw [if_pos hp]; exact h1, h2, fun a b hb => ?_⟩
        rw [h3 a b hb, Nat.factorial_zero, Nat.cast_one, mul_one, show 0 + ((i : ℤ) - j + 1).toNat = i + 1 - j by omega]
      · refine ⟨H, by rw [if_neg hp], hH, fun a b hb => ?_⟩
        rw [show i + 1 - j = 0 by omega, Nat.factorial_zero, Nat.cast_one, div_one]
        split
        · rename_i q; rw [q.1, q.2]
        · rfl
    obtain ⟨H2, g1, g2, g3⟩ := ih (j + 1) H1 (by omega) h2
    refine ⟨H2, by rw [ksDivJ, h1, Res.bind_ok, g1], g2, fun a b hb => ?_⟩
    rw [g3 a b hb, h3 a b hb, h3 i b hb]
    by_cases e : a = i ∧ b = j
    · obtain ⟨rfl, rfl⟩ := e
      rw [if_neg (by omega), if_pos ⟨rfl, rfl⟩, if_pos ⟨rfl, le_refl _⟩]
    · by_cases q : a = i ∧ j + 1 ≤ b
      · rw [if_pos q, if_pos (⟨q.1, by omega⟩ : a = i ∧ j ≤ b), if_neg (by omega : ¬ (i = i ∧ b = j))]
      · rw [if_neg q, if_neg e, if_neg (by omega : ¬ (a = i ∧ j ≤ b))]

theorem ksDivI_spec (m : Nat) : ∀ (todo i : Nat) (H : List F), i + todo = m → H.length = m * m →
    ∃ H', ksDivI m todo i H = .ok H' ∧ H'.length = m * m ∧ ∀ a b, a < m → b < m →
      ent m H' a b = if i ≤ a then ent m H a b / (a + 1 - b).factorial else ent m H a b := by
  intro todo
  induction todo with
  | zero => intro i H hi hH; exact ⟨H, rfl, hH, fun a b ha hb => by rw [if_neg (by omega)]⟩
  | succ todo ih =>
    intro i H hi hH
    obtain ⟨H1, h1, h2, h3⟩ := ksDivJ_spec m i (by omega) m 0 H (by omega) hH
    obtain ⟨H2, g1, g2, g3⟩ := ih (i + 1) H1 (by omega) h2
    refine ⟨H2, by rw [ksDivI, h1, Res.bind_ok, g1], g2, fun a b ha hb => ?_⟩
    rw [g3 a b ha hb, h3 a b hb]
    by_cases e : a = i
    · subst e
      rw [if_neg (by omega), if_pos ⟨rfl, Nat.zero_le _⟩, if_pos (le_refl _)]
    · rw [if_neg (by omega : ¬ (a = i ∧ 0 ≤ b))]
      by_cases q : i + 1 ≤ a
      · rw [if_pos q, if_pos (by omega)]
      · rw [if_neg q, if_neg (by omega)]

theorem ksTail_spec (n : Nat) (hn : 0 < n) : ∀ (todo i : Nat) (s : F) (e : ℤ),
    (ksTail n todo (i + 1) s e).1 * 10 ^ (ksTail n todo (i + 1) s e).2 =
      s * 10 ^ e * ((i + todo).factorial / (i.factorial * n ^ todo)) := by
  intro todo
  induction todo with
  | zero => intro i s e; rw [ksTail, add_zero, pow_zero, mul_one, div_self (by positivity), mul_one]
  | succ todo ih =>
    intro i s e
    have key : s * ((i + 1 : ℕ) : F) / n * 10 ^ e * ((i + 1 + todo).factorial / ((i + 1).factorial * n ^ todo)) =
        s * 10 ^ e * ((i + (todo + 1)).factorial / (i.factorial * n ^ (todo + 1))) := by
      rw [show i + 1 + todo = i + (todo + 1) by omega, Nat.factorial_succ i, pow_succ]
      push_cast
      field_simp
    rw [ksTail]
    split
    · rw [ih, ← key]
      congr 1
      rw [zpow_sub₀ (by norm_num), mul_assoc, show ((10 : F) ^ (140 : ℤ)) = 10 ^ 140 by norm_cast,
        mul_div_cancel₀ _ (by positivity)]
    · rw [ih, key]

/-- **C76.** Outside the range of the approximation `p_ks_new` returns one minus the value of Marsaglia, Tsang and Wang,
`n!/n^n` times the middle entry of the `n`-th power of their matrix. -/
theorem C76_p_ks_new [FloorRing F] (easy : Nat → F → F) (ksTest n : Nat) (d : F) (hn : 0 < n) (hd : 0 ≤ d)
    (hs : ksTest = 2 ∨ (d * d * n ≤ 7.24 ∧ (d * d * n ≤ 3.76 ∨ n ≤ 99))) (k : Nat) (hk : (k : F) - 1 ≤ n * d) (hk' : n * d < k) :
    ∃ q, pKsNew easy ksTest n d = .ok (1 - q) ∧ ∀ (hc : k - 1 < 2 * k - 1),
      q = n.factorial / n ^ n * (Spec.mtwMatrix (2 * k - 1) (k - n * d) ^ n) ⟨k - 1, hc⟩ ⟨k - 1, hc⟩ := by
  have hnd : 0 ≤ (n : F) * d := by positivity
  have hk0 : 0 < k := by
    rcases Nat.eq_zero_or_pos k with h | h
    · subst h; push_cast at hk'; linarith
    · exact h
  have hfl : (⌊(n : F) * d⌋).toNat + 1 = k := by
    have : ⌊(n : F) * d⌋ = (k : ℤ) - 1 := by
      rw [Int.floor_eq_iff]; push_cast; constructor <;> linarith
    omega
  have hcond : ¬ (ksTest ≠ 2 ∧ (d * d * n > 7.24 ∨ (d * d * n > 3.76 ∧ n > 99))) := by
    rintro ⟨h1, h2⟩
    rcases hs with h | ⟨h3, h4⟩
    · exact h1 h
    · rcases h2 with h2 | ⟨h2, h5⟩
      · linarith
      · rcases h4 with h4 | h4
        · linarith
        · omega
  unfold pKsNew
  simp only
  rw [if_neg hcond, hfl]
  generalize hm : 2 * k - 1 = m
  generalize hh : (k : F) - n * d = h
  have hm0 : 0 < m := by omega
  obtain ⟨H1, a1, a2, a3⟩ := ksInitI_spec m m 0 (List.replicate (m * m) (0 : F)) (by omega) (by simp)
  obtain ⟨H2, b1, b2, b3⟩ := ksBorder_spec m h m 0 H1 (by omega) a2
  have c0 := rd_ent b2 (show m - 1 < m by omega) hm0
  obtain ⟨H3, c1, c2, c3⟩ := wr_ent b2 (show m - 1 < m by omega) hm0
    (ent m H2 (m - 1) 0 + (if 2 * h - 1 > 0 then (2 * h - 1) ^ m else 0))
  rw [add_zero] at c0 c1
  obtain ⟨H4, d1, d2, d3⟩ := ksDivI_spec m m 0 H3 (by omega) c2
  have hf : Nat.log2 n + 1 ≤ n + 1 := by
    have := Nat.log2_self_le (show n ≠ 0 by omega)
    have := Nat.lt_two_pow_self (n := Nat.log2 n)
    omega
  obtain ⟨Q, eQ, e1, e2, e3⟩ := C18_mPower H4 0 m hm0 d2 n hn (n + 1) hf (List.replicate (m * m) 0) 0 (by simp)
  have hkm : k - 1 < m := by omega
  rw [a1, Res.bind_ok, b1, Res.bind_ok, c0, Res.bind_ok, c1, Res.bind_ok, d1, Res.bind_ok, e1, Res.bind_ok]
  simp only
  rw [show (k - 1) * m + k - 1 = (k - 1) * m + (k - 1) by omega, rd_ent e2 hkm hkm, Res.bind_ok]
  refine ⟨_, rfl, fun hc => ?_⟩
  have hmat : matOf m H4 = Spec.mtwMatrix m h := by
    ext i j
    have h1 : matOf m H4 i j = ent m H4 i j := rfl
    rw [h1, d3 i j i.2 j.2, if_pos (Nat.zero_le _), c3 i j j.2, Spec.mtwMatrix]
    have h2 : ent m H2 i j = (if i.val + 1 < j.val then 0 else 1) - (if j.val = 0 then h ^ (i.val + 1) else 0) -
        (if i.val + 1 = m then h ^ (m - j.val) else 0) := by
      rw [b3 i j i.2 j.2, a3 i j i.2 j.2, if_pos (Nat.zero_le _)]
      simp only [Nat.zero_le, and_true]
    have h3 : max (2 * h - 1) 0 ^ m = if 2 * h - 1 > 0 then (2 * h - 1) ^ m else 0 := by
      split
      · rw [max_eq_left (by linarith)]
      · rw [max_eq_right (by linarith), zero_pow (by omega)]
    by_cases e : i.val = m - 1 ∧ j.val = 0
    · have e' : i.val + 1 = m ∧ j.val = 0 := by omega
      rw [if_pos e, if_neg (by omega : ¬ i.val + 1 < j.val), if_pos e', h3,
        show ent m H2 (m - 1) 0 = ent m H2 i j by rw [e.1, e.2], h2, if_neg (by omega : ¬ i.val + 1 < j.val)]
    · rw [if_neg e, if_neg (by omega : ¬ (i.val + 1 = m ∧ j.val = 0)), h2, add_zero]
      by_cases q : i.val + 1 < j.val
      · rw [if_pos q, if_pos q, if_neg (by omega), if_neg (by omega), sub_zero, sub_zero, zero_div]
      · rw [if_neg q, if_neg q]
  have ht := ksTail_spec n hn n 0 (ent m Q (k - 1) (k - 1)) eQ
  rw [zero_add, zero_add, Nat.factorial_zero, Nat.cast_one, one_mul] at ht
  rw [ht]
  have h5 := congrFun (congrFun e3 ⟨k - 1, hkm⟩) ⟨k - 1, hkm⟩
  rw [zpow_zero, one_smul, hmat, Matrix.smul_apply, smul_eq_mul] at h5
  have h6 : matOf m Q ⟨k - 1, hkm⟩ ⟨k - 1, hkm⟩ = ent m Q (k - 1) (k - 1) := rfl
  rw [h6] at h5
  rw [← h5]
  ring

theorem mtwMatrix_nonneg (m : Nat) (h : F) (h0 : 0 ≤ h) (h1 : h ≤ 1) (i j : Fin m) : 0 ≤ Spec.mtwMatrix m h i j := by
  unfold Spec.mtwMatrix
  split
  · exact le_refl _
  refine div_nonneg ?_ (by positivity)
  have hp : ∀ e : Nat, h ^ e ≤ 1 := fun e => pow_le_one₀ h0 h1
  have hq : ∀ e : Nat, 0 ≤ h ^ e := fun e => pow_nonneg h0 e
  by_cases hj : j.val = 0
  · by_cases hi : i.val + 1 = m
    · rw [if_pos hj, if_pos hi, if_pos ⟨hi, hj⟩, hi, hj, Nat.sub_zero]
      have hm : m ≠ 0 := by omega
      -- convexity of the power at the points `1` and `2h-1`
      have key : 2 * h ^ m ≤ 1 + max (2 * h - 1) 0 ^ m := by
        rcases le_total (2 * h - 1) 0 with hc | hc
        · rw [max_eq_right hc, zero_pow hm, add_zero]
          have : h ^ m ≤ h := pow_le_of_le_one h0 h1 hm
          linarith
        · rw [max_eq_left hc]
          have : ∀ e : Nat, 2 * h ^ (e + 1) ≤ 1 + (2 * h - 1) ^ (e + 1) := by
            intro e
            induction e with
            | zero => simp
            | succ e ih =>
              have h2 : 0 ≤ (2 * h - 1) ^ (e + 1) := pow_nonneg hc _
              have h3 : (2 * h - 1) ^ (e + 1) ≤ 1 := pow_le_one₀ hc (by linarith)
              rw [pow_succ h, pow_succ (2 * h - 1)]
              nlinarith
          obtain ⟨e, rfl⟩ : ∃ e, m = e + 1 := ⟨m - 1, by omega⟩
          exact this e
      linarith
    · rw [if_pos hj, if_neg hi, if_neg (fun q => hi q.1)]
      linarith [hp (i.val + 1)]
  · rw [if_neg hj, if_neg (fun q => hj q.2 : ¬ (i.val + 1 = m ∧ j.val = 0))]
    split
    · linarith [hp (m - j.val)]
    · norm_num

/-- **C76.** The exact branch never returns more than one. -/
theorem C76_le_one [FloorRing F] (easy : Nat → F → F) (ksTest n : Nat) (d : F) (hn : 0 < n) (hd : 0 ≤ d)
    (hs : ksTest = 2 ∨ (d * d * n ≤ 7.24 ∧ (d * d * n ≤ 3.76 ∨ n ≤ 99))) :
    ∃ p, pKsNew easy ksTest n d = .ok p ∧ p ≤ 1 := by
  have hnd : 0 ≤ (n : F) * d := by positivity
  have hf : 0 ≤ ⌊(n : F) * d⌋ := Int.floor_nonneg.2 hnd
  have e : (((⌊(n : F) * d⌋).toNat + 1 : ℕ) : F) = (⌊(n : F) * d⌋ : F) + 1 := by
    rw [Nat.cast_add, Nat.cast_one, ← Int.cast_natCast, Int.toNat_of_nonneg hf]
  have h1 : (((⌊(n : F) * d⌋).toNat + 1 : ℕ) : F) - 1 ≤ n * d := by rw [e]; linarith [Int.floor_le ((n : F) * d)]
  have h2 : (n : F) * d < ((⌊(n : F) * d⌋).toNat + 1 : ℕ) := by rw [e]; exact Int.lt_floor_add_one _
  obtain ⟨q, a, b⟩ := C76_p_ks_new easy ksTest n d hn hd hs _ h1 h2
  refine ⟨_, a, ?_⟩
  rw [b (by omega)]
  have hM : ∀ r (i j : Fin (2 * ((⌊(n : F) * d⌋).toNat + 1) - 1)),
      0 ≤ (Spec.mtwMatrix (2 * ((⌊(n : F) * d⌋).toNat + 1) - 1) (((⌊(n : F) * d⌋).toNat + 1 : ℕ) - n * d) ^ r) i j := by
    intro r
    induction r with
    | zero => intro i j; rw [pow_zero, Matrix.one_apply]; split <;> norm_num
    | succ r ih =>
      intro i j
      rw [pow_succ, Matrix.mul_apply]
      exact Finset.sum_nonneg fun l _ => mul_nonneg (ih i l) (mtwMatrix_nonneg _ _ (by linarith) (by linarith) l j)
  have := hM n ⟨(⌊(n : F) * d⌋).toNat + 1 - 1, by omega⟩ ⟨(⌊(n : F) * d⌋).toNat + 1 - 1, by omega⟩
  have h3 : (0 : F) ≤ n.factorial / n ^ n := by positivity
  linarith [mul_nonneg h3 this]

/-- **C76.** For `d < 1/n` the value is the classical one, `1 - n! (2d - 1/n)^n` from `1/(2n)` on and 1 below. -/
theorem C76_small [FloorRing F] (easy : Nat → F → F) (ksTest n : Nat) (d : F) (hn : 0 < n) (hd : 0 ≤ d) (hd1 : n * d < 1) :
    pKsNew easy ksTest n d = .ok (1 - n.factorial * max (2 * d - 1 / n) 0 ^ n) := by
  have hn' : (0 : F) < n := by exact_mod_cast hn
  have hn1 : (1 : F) ≤ n := by exact_mod_cast hn
  have hd2 : d < 1 := by nlinarith
  have hs : d * d * n ≤ 3.76 := by nlinarith
  obtain ⟨q, a, b⟩ := C76_p_ks_new easy ksTest n d hn hd (.inr ⟨by linarith, .inl hs⟩) 1 (by push_cast; nlinarith) (by push_cast; linarith)
  rw [a, b (by omega)]
  congr 2
  have h1 : Spec.mtwMatrix (2 * 1 - 1) ((1 : ℕ) - n * d) = Matrix.diagonal fun _ => max (2 * (n * d) - 1) 0 := by
    ext i j
    have hi : i.val = 0 := by omega
    have hj : j.val = 0 := by omega
    have hij : i = j := by ext; omega
    subst hij
    rw [Matrix.diagonal_apply_eq, Spec.mtwMatrix, hi]
    norm_num
    rcases le_total (2 * (n * d) - 1) 0 with hc | hc
    · rw [max_eq_right hc, max_eq_left (by linarith)]; ring
    · rw [max_eq_left hc, max_eq_right (by linarith)]; ring
  rw [h1, Matrix.diagonal_pow, Matrix.diagonal_apply_eq, Pi.pow_apply, div_mul_eq_mul_div, mul_div_assoc, ← div_pow]
  congr 2
  rw [show (2 * d - 1 / n : F) = (2 * (n * d) - 1) / n by field_simp, ← max_div_div_right hn'.le, zero_div]

/-- **C76.** In the range of the approximation nothing is computed. -/
theorem C76_shortcut [FloorRing F] (easy : Nat → F → F) (ksTest n : Nat) (d : F) (h : ksTest ≠ 2)
    (hs : 7.24 < d * d * n ∨ 3.76 < d * d * n ∧ 99 < n) : pKsNew easy ksTest n d = .ok (easy n (d * d * n)) := by
  unfold pKsNew
  simp only
  rw [if_pos ⟨h, hs⟩]

/-- Two values, `d = 3/8`: the p-value is 7/8. -/
example : pKsNew (F := ℚ) (fun _ _ => 0) 2 2 (3 / 8) = .ok (7 / 8) := by
  rw [C76_small _ _ _ _ (by norm_num) (by norm_num) (by norm_num)]
  norm_num [Nat.factorial]

/-- Two values, `d = 3/4`: the p-value is 1/8, as the distance is below `d` unless both values are below `1/4` or both above `3/4`. -/
example : pKsNew (F := ℚ) (fun _ _ => 0) 2 2 (3 / 4) = .ok (1 / 8) := by
  obtain ⟨q, a, b⟩ := C76_p_ks_new (F := ℚ) (fun _ _ => 0) 2 2 (3 / 4) (by norm_num) (by norm_num) (.inl rfl) 2 (by norm_num) (by norm_num)
  rw [a, b (by norm_num), pow_two (Spec.mtwMatrix _ _), Matrix.mul_apply]
  norm_num [Fin.sum_univ_succ, Spec.mtwMatrix, Nat.factorial]

end Dh
