import Verif.Model.Dct
import Verif.Proof.Tally
import Verif.Props.MinDist
import Mathlib.Algebra.BigOperators.Field
import Mathlib.Data.List.GetD
/-
The discrete cosine transform of dab_dct.c: loops and orthogonality.
-/
namespace Dh

/-- Coefficient `k` of the type II discrete cosine transform of `N` values. -/
noncomputable def Spec.dctCoeff (x : ℕ → ℝ) (N k : ℕ) : ℝ :=
  ∑ j ∈ Finset.range N, x j * Real.cos (Real.pi * k * (2 * j + 1) / (2 * N))

open Spec

/-! ### Loops -/

theorem dctInner_spec (input : List UInt) (len i : Nat) (hin : len ≤ input.length) : ∀ (todo j : Nat) (output : List ℝ),
    j + todo = len → i < output.length →
    dctInner input len i todo j output = .ok (output.set i (output.getD i 0 +
      ∑ t ∈ Finset.range todo, (((input.getD (j + t) 0).toNat : ℝ) * Real.cos (Real.pi * i * (2 * (j + t : ℕ) + 1) / (2 * len))))) := by
  intro todo
  induction todo with
  | zero =>
    intro j output _ hi
    rw [dctInner, Finset.sum_range_zero, add_zero, List.getD_eq_getElem _ _ hi, List.set_getElem_self]
  | succ todo ih =>
    intro j output hj hi
    rw [dctInner, rd_dflt 0 hi, Res.bind_ok, rd_dflt 0 (show j < input.length by omega), Res.bind_ok, wr, if_pos hi, Res.bind_ok,
      ih (j + 1) _ (by omega) (by simpa using hi), List.set_set, getD_set _ _ _ _ hi, if_pos rfl, Finset.sum_range_succ', add_zero]
    congr 2
    have hlen : (len : ℝ) ≠ 0 := by
      have : 0 < len := by omega
      positivity
    have hc : Real.pi / len * (0.5 + j) * i = Real.pi * i * (2 * (j : ℕ) + 1) / (2 * len) := by field_simp; ring
    rw [hc, add_assoc, add_comm (_ * _) (Finset.sum _ _)]
    congr 2
    refine Finset.sum_congr rfl fun t _ => ?_
    rw [show j + 1 + t = j + (t + 1) by omega]

theorem dctOuter_spec (input : List UInt) (len : Nat) (hin : len ≤ input.length) : ∀ (todo i : Nat) (output : List ℝ),
    i + todo = len → output.length = len → (∀ k, i ≤ k → output.getD k 0 = 0) →
    (∀ k < i, output.getD k 0 = dctCoeff (fun j => (input.getD j 0).toNat) len k) →
    dctOuter input len todo i output = .ok ((List.range len).map (dctCoeff (fun j => (input.getD j 0).toNat) len)) := by
  intro todo
  induction todo with
  | zero =>
    intro i output hi hl _ hd
    rw [dctOuter]
    congr 1
    apply List.ext_getElem
    · simp [hl]
    · intro k h1 h2
      rw [List.getElem_map, List.getElem_range, ← hd k (by omega), List.getD_eq_getElem _ _ h1]
  | succ todo ih =>
    intro i output hi hl hz hd
    rw [dctOuter, dctInner_spec input len i hin len 0 output (by omega) (by omega), Res.bind_ok]
    apply ih (i + 1)
    · omega
    · simpa using hl
    · intro k hk
      rw [getD_set _ _ _ _ (by omega), if_neg (by omega), hz k (by omega)]
    · intro k hk
      rw [getD_set _ _ _ _ (by omega)]
      split
      · subst k
        rw [hz i (le_refl _), zero_add, dctCoeff]
        refine Finset.sum_congr rfl fun t _ => ?_
        rw [Nat.zero_add]
      · exact hd k (by omega)

theorem fDCT2_spec (input : List UInt) (len : Nat) (hin : len ≤ input.length) :
    fDCT2 input len = .ok ((List.range len).map (dctCoeff (fun j => (input.getD j 0).toNat) len)) := by
  rw [fDCT2]
  refine dctOuter_spec input len hin len 0 _ (by omega) (by simp) ?_ (by omega)
  intro k _
  simp [List.getD, List.getElem?_replicate]
  split <;> simp

theorem fftFill_spec (input : List UInt) (len : Nat) (hin : len ≤ input.length) : ∀ (todo i : Nat) (fft : List ℝ),
    i + todo = len → fft.length = 4 * len →
    ∃ fft', fftFill input todo i fft = .ok fft' ∧ fft'.length = 4 * len ∧
      (∀ j, i ≤ j → j < len → fft'.getD (2 * j + 1) 0 = (input.getD j 0).toNat) ∧
      (∀ k, (∀ j, i ≤ j → j < len → k ≠ 2 * j + 1) → fft'.getD k 0 = fft.getD k 0) := by
  intro todo
  induction todo with
  | zero =>
    intro i fft hi hl
    exact ⟨fft, rfl, hl, fun j h1 h2 => by omega, fun k _ => rfl⟩
  | succ todo ih =>
    intro i fft hi hl
    obtain ⟨f, h1, h2, h3, h4⟩ := ih (i + 1) (fft.set (2 * i + 1) ((input.getD i 0).toNat : ℝ)) (by omega) (by simpa using hl)
    refine ⟨f, ?_, h2, ?_, ?_⟩
    · rw [fftFill, rd_dflt 0 (show i < input.length by omega), Res.bind_ok, wr, if_pos (by omega), Res.bind_ok, h1]
    · intro j hj hjl
      by_cases e : j = i
      · subst e
        rw [h4 _ (fun j' _ _ => by omega), getD_set _ _ _ _ (by omega), if_pos rfl]
      · exact h3 j (by omega) hjl
    · intro k hk
      rw [h4 k (fun j h1 h2 => hk j (by omega) h2), getD_set _ _ _ _ (by omega), if_neg (hk i (le_refl _) (by omega))]

theorem fftMirror_spec (len : Nat) : ∀ (todo i : Nat) (fft : List ℝ), 1 ≤ i → i + todo = 2 * len → fft.length = 4 * len →
    ∃ fft', fftMirror len todo i fft = .ok fft' ∧ fft'.length = 4 * len ∧
      (∀ j, i ≤ j → j < 2 * len → fft'.getD (4 * len - j) 0 = fft.getD j 0) ∧
      (∀ k, (k ≤ 2 * len ∨ 4 * len - i < k) → fft'.getD k 0 = fft.getD k 0) := by
  intro todo
  induction todo with
  | zero =>
    intro i fft _ hi hl
    exact ⟨fft, rfl, hl, fun j h1 h2 => by omega, fun k _ => rfl⟩
  | succ todo ih =>
    intro i fft h0 hi hl
    obtain ⟨f, h1, h2, h3, h4⟩ := ih (i + 1) (fft.set (4 * len - i) (fft.getD i 0)) (by omega) (by omega) (by simpa using hl)
    refine ⟨f, ?_, h2, ?_, ?_⟩
    · rw [fftMirror, rd_dflt 0 (show i < fft.length by omega), Res.bind_ok, wr, if_pos (by omega), Res.bind_ok, h1]
    · intro j hj hjl
      by_cases e : j = i
      · subst e
        rw [h4 _ (.inr (by omega)), getD_set _ _ _ _ (by omega), if_pos rfl]
      · rw [h3 j (by omega) hjl, getD_set _ _ _ _ (by omega), if_neg (by omega)]
    · intro k hk
      rw [h4 k (by omega), getD_set _ _ _ _ (by omega), if_neg (by omega)]

theorem fftOut_spec (fft : List ℝ) (len : Nat) (hf : len ≤ fft.length) : ∀ (todo i : Nat) (output : List ℝ),
    i + todo = len → output.length = len → (∀ k < i, output.getD k 0 = fft.getD k 0 / 2) →
    fftOut fft todo i output = .ok ((List.range len).map fun k => fft.getD k 0 / 2) := by
  intro todo
  induction todo with
  | zero =>
    intro i output hi hl hd
    rw [fftOut]
    congr 1
    apply List.ext_getElem
    · simp [hl]
    · intro k h1 h2
      rw [List.getElem_map, List.getElem_range, ← hd k (by omega), List.getD_eq_getElem _ _ h1]
  | succ todo ih =>
    intro i output hi hl hd
    rw [fftOut, rd_dflt 0 (show i < fft.length by omega), Res.bind_ok, wr, if_pos (by omega), Res.bind_ok]
    refine ih (i + 1) _ (by omega) (by simpa using hl) fun k hk => ?_
    rw [getD_set _ _ _ _ (by omega)]
    split
    · subst k; rfl
    · exact hd k (by omega)

theorem sum_range_double (g : ℕ → ℝ) (n : ℕ) :
    ∑ j ∈ Finset.range (2 * n), g j = ∑ i ∈ Finset.range n, (g (2 * i) + g (2 * i + 1)) := by
  induction n with
  | zero => rfl
  | succ n ih => rw [show 2 * (n + 1) = 2 * n + 1 + 1 by ring, Finset.sum_range_succ, Finset.sum_range_succ, ih, Finset.sum_range_succ]; ring

/-- The even-symmetric sequence with the values at odd places has twice the cosine transform as its Fourier transform. -/
theorem mirrored_fourier (d : ℕ → ℝ) (x : ℕ → ℝ) (N k : ℕ) (hN : 0 < N) (heven : ∀ i, d (2 * i) = 0)
    (h1 : ∀ i < N, d (2 * i + 1) = x i) (h2 : ∀ i < N, d (4 * N - (2 * i + 1)) = x i) :
    ∑ j ∈ Finset.range (4 * N), d j * Real.cos (2 * Real.pi * j * k / (4 * N : ℕ)) = 2 * dctCoeff x N k := by
  have hN' : (N : ℝ) ≠ 0 := by positivity
  rw [show 4 * N = 2 * (2 * N) by ring, sum_range_double]
  simp only [heven, zero_mul, zero_add]
  rw [show 2 * N = N + N by ring, Finset.sum_range_add, ← Finset.sum_range_reflect (fun i => d (2 * (N + i) + 1) * _),
    ← Finset.sum_add_distrib, dctCoeff, Finset.mul_sum]
  refine Finset.sum_congr rfl fun i hi => ?_
  have hi := Finset.mem_range.1 hi
  rw [h1 i hi, show 2 * (N + (N - 1 - i)) + 1 = 4 * N - (2 * i + 1) by omega, h2 i hi]
  have e1 : 2 * Real.pi * ((2 * i + 1 : ℕ) : ℝ) * k / ((2 * (N + N) : ℕ) : ℝ) = Real.pi * k * (2 * i + 1) / (2 * N) := by
    push_cast; field_simp; ring
  have e2 : 2 * Real.pi * ((4 * N - (2 * i + 1) : ℕ) : ℝ) * k / ((2 * (N + N) : ℕ) : ℝ) =
      k * (2 * Real.pi) - Real.pi * k * (2 * i + 1) / (2 * N) := by
    rw [Nat.cast_sub (by omega)]; push_cast; field_simp; ring
  rw [e1, e2, Real.cos_nat_mul_two_pi_sub]
  ring

theorem fDCT2fft_spec (input : List UInt) (output : List ℝ) (e : Nat) (len : Nat) (hlen : len = 2 ^ e ∨ len ≤ 4)
    (hin : len ≤ input.length) (hout : output.length = len) :
    fDCT2fft input output len = .ok ((List.range len).map (dctCoeff (fun j => (input.getD j 0).toNat) len)) := by
  by_cases h4 : len ≤ 4
  · rw [fDCT2fft, if_pos h4, fDCT2_spec input len hin]
  have he : len = 2 ^ e := by omega
  obtain ⟨f1, a1, l1, p1, q1⟩ := fftFill_spec input len hin len 0 (List.replicate (4 * len) 0) (by omega) (by simp)
  obtain ⟨f2, a2, l2, p2, q2⟩ := fftMirror_spec len (2 * len - 1) 1 f1 (le_refl _) (by omega) l1
  have hz : ∀ k, (List.replicate (4 * len) (0 : ℝ)).getD k 0 = 0 := by
    intro k
    simp [List.getD, List.getElem?_replicate]
    split <;> simp
  rw [fDCT2fft, if_neg h4, a1, Res.bind_ok, a2, Res.bind_ok, gslRealFft]
  have hp : 2 ^ Nat.log2 f2.length = f2.length := by
    rw [l2, he, show 4 * 2 ^ e = 2 ^ (e + 2) by rw [pow_add]; ring, Nat.log2_two_pow]
  rw [if_pos hp, Res.bind_ok, fftOut_spec _ len (by simp [l2]; omega) len 0 output (by omega) hout (by omega)]
  congr 1
  refine List.map_congr_left fun k hk => ?_
  have hk := List.mem_range.1 hk
  rw [List.getD_eq_getElem _ _ (by simp [l2]; omega), List.getElem_map, List.getElem_range, if_pos (by rw [l2]; omega), l2,
    mirrored_fourier (fun j => f2.getD j 0) (fun j => (input.getD j 0).toNat) len k (by omega) ?_ ?_ ?_]
  · ring
  · intro i
    by_cases hi : 2 * i ≤ 2 * len
    · rw [q2 _ (.inl hi), q1 _ (fun j _ _ => by omega), hz]
    · by_cases hi4 : 2 * i < 4 * len
      · rw [show 2 * i = 4 * len - (4 * len - 2 * i) by omega, p2 _ (by omega) (by omega), q1 _ (fun j _ _ => by omega), hz]
      · rw [List.getD_eq_getElem?_getD, List.getElem?_eq_none (by omega)]; rfl
  · intro i hi
    rw [q2 _ (.inl (by omega)), p1 i (by omega) hi]
  · intro i hi
    rw [p2 _ (by omega) (by omega), p1 i (by omega) hi]

theorem fDCT2fft_abort (input : List UInt) (output : List ℝ) (len : Nat) (h4 : 4 < len) (hp : ∀ e, len ≠ 2 ^ e) (hin : len ≤ input.length) :
    fDCT2fft input output len = .exit := by
  obtain ⟨f1, a1, l1, -, -⟩ := fftFill_spec input len hin len 0 (List.replicate (4 * len) 0) (by omega) (by simp)
  obtain ⟨f2, a2, l2, -, -⟩ := fftMirror_spec len (2 * len - 1) 1 f1 (le_refl _) (by omega) l1
  rw [fDCT2fft, if_neg (by omega), a1, Res.bind_ok, a2, Res.bind_ok, gslRealFft]
  rw [if_neg, Res.bind_exit]
  rw [l2]
  intro h
  generalize Nat.log2 (4 * len) = t at h
  have ht : 2 ≤ t := by
    by_contra hc
    have : 2 ^ t ≤ 2 ^ 1 := Nat.pow_le_pow_right (by omega) (by omega)
    omega
  obtain ⟨s, rfl⟩ := Nat.exists_eq_add_of_le ht
  rw [pow_add] at h
  exact hp s (by omega)

/-! ### Orthogonality -/

theorem cos_sum_zero (N : ℕ) (m : ℤ) (hm0 : m ≠ 0) (hlo : -(2 * N : ℤ) < m) (hhi : m < 2 * N) :
    ∑ j ∈ Finset.range N, Real.cos (Real.pi * m * (2 * j + 1) / (2 * N)) = 0 := by
  have hN : (0 : ℝ) < N := by
    have : 0 < N := by omega
    positivity
  have hs : Real.sin (Real.pi * m / (2 * N)) ≠ 0 := by
    intro h
    obtain ⟨n, hn⟩ := Real.sin_eq_zero_iff.1 h
    have h1 : (n : ℝ) * (2 * N) = m := by
      have hpi := Real.pi_ne_zero
      field_simp at hn
      linarith
    have h2 : n * (2 * N) = m := by exact_mod_cast h1
    rcases lt_trichotomy n 0 with h | h | h
    · nlinarith
    · subst h; simp at h2; exact hm0 h2.symm
    · nlinarith
  have key : ∀ n : ℕ, 2 * Real.sin (Real.pi * m / (2 * N)) * ∑ j ∈ Finset.range n, Real.cos (Real.pi * m * (2 * j + 1) / (2 * N)) =
      Real.sin (Real.pi * m * n / N) := by
    intro n
    induction n with
    | zero => simp
    | succ n ih =>
      rw [Finset.sum_range_succ, mul_add, ih]
      have e1 : Real.pi * m * n / N = Real.pi * m * (2 * n + 1) / (2 * N) - Real.pi * m / (2 * N) := by field_simp; ring
      have e2 : Real.pi * m * ((n + 1 : ℕ) : ℝ) / N = Real.pi * m * (2 * n + 1) / (2 * N) + Real.pi * m / (2 * N) := by
        push_cast; field_simp; ring
      rw [e1, e2, Real.sin_sub, Real.sin_add]
      ring
  have := key N
  rw [show Real.pi * m * N / N = m * Real.pi by field_simp, Real.sin_int_mul_pi] at this
  exact (mul_eq_zero.1 this).resolve_left (by simpa using hs)

/-- The cosines of the transform are orthogonal. -/
theorem dct_orthogonal (N a b : ℕ) (ha : a < N) (hb : b < N) :
    ∑ j ∈ Finset.range N, Real.cos (Real.pi * a * (2 * j + 1) / (2 * N)) * Real.cos (Real.pi * b * (2 * j + 1) / (2 * N)) =
      if a = b then (if a = 0 then (N : ℝ) else N / 2) else 0 := by
  have hsplit : ∀ j : ℕ, Real.cos (Real.pi * a * (2 * j + 1) / (2 * N)) * Real.cos (Real.pi * b * (2 * j + 1) / (2 * N)) =
      (Real.cos (Real.pi * ((a - b : ℤ) : ℝ) * (2 * j + 1) / (2 * N)) + Real.cos (Real.pi * ((a + b : ℤ) : ℝ) * (2 * j + 1) / (2 * N))) / 2 := by
    intro j
    have e1 : Real.pi * ((a - b : ℤ) : ℝ) * (2 * j + 1) / (2 * N) = Real.pi * a * (2 * j + 1) / (2 * N) - Real.pi * b * (2 * j + 1) / (2 * N) := by
      push_cast; ring
    have e2 : Real.pi * ((a + b : ℤ) : ℝ) * (2 * j + 1) / (2 * N) = Real.pi * a * (2 * j + 1) / (2 * N) + Real.pi * b * (2 * j + 1) / (2 * N) := by
      push_cast; ring
    rw [e1, e2, Real.cos_sub, Real.cos_add]
    ring
  simp_rw [hsplit]
  rw [← Finset.sum_div, Finset.sum_add_distrib]
  by_cases hab : a = b
  · subst hab
    rw [if_pos rfl]
    have e0 : ∑ j ∈ Finset.range N, Real.cos (Real.pi * ((a - a : ℤ) : ℝ) * (2 * j + 1) / (2 * N)) = N := by simp
    rw [e0]
    split
    · subst a
      simp
    · rw [cos_sum_zero N (a + a) (by omega) (by omega) (by omega), add_zero]
  · rw [if_neg hab, cos_sum_zero N (a - b) (by omega) (by omega) (by omega), cos_sum_zero N (a + b) (by omega) (by omega) (by omega)]
    simp

end Dh
