import Verif.Model.MissingTest
import Verif.Props.Missing
import Verif.Props.MonobitPower
import Verif.Props.KuiperPower
/-
C135: what the missing-words tests always find.
-/
namespace Dh

open Spec

theorem exp_neg_eight : Real.exp (-4 ^ 2 / 2) ≤ 0.0004 := by
  rw [show (-4 ^ 2 / 2 : ℝ) = (8 : ℕ) * (-1) by norm_num, Real.exp_nat_mul]
  have h1 := Real.exp_neg_one_lt_d9
  have h0 := Real.exp_pos (-1)
  calc Real.exp (-1) ^ 8 ≤ 0.3678794413 ^ 8 := pow_le_pow_left₀ h0.le (by linarith) 8
    _ ≤ 0.0004 := by norm_num

/-- Statistics four deviations above their target fail. -/
theorem high_fails (m : Nat) (y σ : ℝ) (hσ : 0 < σ) (xs : Nat → ℝ) (hx : ∀ i < m, y + 4 * σ ≤ xs i) (ps : List ℝ) (hlen : ps.length = m)
    (hps : ∀ i, ∀ h : i < ps.length, ps[i] = xtestEval normalCdf (xs i) y σ) : FailsLow ps := by
  refine C137_low ps fun x hxm => ?_
  obtain ⟨i, hi, rfl⟩ := List.getElem_of_mem hxm
  rw [hps i hi, xtestEval]
  refine ⟨(normalCdf_bounds _ _).1, ((normalCdf_mono σ ?_).trans (normalCdf_lower 4 σ hσ (by norm_num))).trans exp_neg_eight⟩
  have := hx i (by omega)
  linarith

/-- A sequence that takes few values leaves the others missing. -/
theorem missing_few (N n D : Nat) (w : Nat → Nat) (S : Finset Nat) (hS : S.card ≤ D) (hw : ∀ t, w t ∈ S) : N ≤ missing N ((List.range n).map w) + D := by
  have h : (List.range N).countP (fun v => decide (v ∈ S)) ≤ S.card := by
    rw [List.countP_eq_length_filter, ← List.toFinset_card_of_nodup (List.nodup_range.filter _)]
    apply Finset.card_le_card
    intro v hv
    simp at hv
    exact hv.2
  have h2 := List.length_eq_countP_add_countP (fun v => decide (v ∈ S)) (l := List.range N)
  rw [List.length_range] at h2
  have h3 : (List.range N).countP (fun a => decide ¬ (decide (a ∈ S) = true)) ≤ missing N ((List.range n).map w) := by
    rw [missing]
    refine List.countP_mono_left fun v _ hv => ?_
    rw [decide_eq_true_iff] at hv ⊢
    intro hm
    obtain ⟨t, -, rfl⟩ := List.mem_map.1 hm
    exact hv (decide_eq_true (hw t))
  omega

theorem missing_period (N n P : Nat) (hP : 0 < P) (w : Nat → Nat) (h : ∀ t, w (t + P) = w t) : N ≤ missing N ((List.range n).map w) + P := by
  refine missing_few N n P w ((Finset.range P).image w) (Finset.card_image_le.trans (by rw [Finset.card_range])) fun t => ?_
  have hmod : ∀ q t, w (t + P * q) = w t := by
    intro q
    induction q with
    | zero => intro t; rfl
    | succ q ih => intro t; rw [Nat.mul_succ, ← Nat.add_assoc, h, ih]
  refine Finset.mem_image.2 ⟨t % P, Finset.mem_range.2 (Nat.mod_lt _ hP), ?_⟩
  conv_rhs => rw [← Nat.mod_add_div t P]
  rw [hmod]

theorem missing_le_missing256 (N : Nat) (ws : List Nat) : missing N ws ≤ missing256 N ws := by
  rw [missing, missing256]
  refine List.countP_mono_left fun v _ hv => ?_
  rw [decide_eq_true_iff] at hv ⊢
  rw [List.count_eq_zero.2 hv]

theorem period_mul {src : Src} {T : Nat} (hT : ∀ j, src (j + T) = src j) : ∀ {a}, T ∣ a → ∀ j, src (j + a) = src j := by
  rintro a ⟨q, rfl⟩
  induction q with
  | zero => intro j; rfl
  | succ q ih => intro j; rw [Nat.mul_succ, ← Nat.add_assoc, hT, ih]

/-- C135: a source of period `T` fails diehard_opso, for any number of words per sample, if `T` divides `2 L` and `2 L` is at most 905504. -/
theorem C135_opso (m : Nat) (T L : Nat) (hL : 0 < L) (hTL : T ∣ 2 * L) (hsmall : 2 * L ≤ 905504) (srcs : Nat → Src) (hT : ∀ i j, srcs i (j + T) = srcs i j) (n : Nat) :
    ∃ ps : List ℝ, ps.length = m ∧ (∀ i, ∀ h : i < ps.length, opsoTest normalCdf (srcs i) n = .ok ps[i]) ∧ FailsLow ps := by
  refine ⟨(List.range m).map fun i => xtestEval normalCdf (missing (2 ^ 20) ((List.range n).map (opsoWord (srcs i))) : ℕ) 141909.3299550069 290.4622634038, by rw [List.length_map, List.length_range],
    fun i h => ?_, high_fails m 141909.3299550069 290.4622634038 (by norm_num)
      (fun i => (missing (2 ^ 20) ((List.range n).map (opsoWord (srcs i))) : ℕ)) (fun i _ => ?_) _ (by rw [List.length_map, List.length_range]) fun i h => by rw [List.getElem_map, List.getElem_range]⟩
  · rw [opsoTest, C45_opso, Res.bind_ok, List.getElem_map, List.getElem_range]
    rfl
  · have h := missing_period (2 ^ 20) n (2 * L) (by omega) (opsoWord (srcs i)) (fun t => by
      have hp := period_mul (hT i) hTL
      rw [opsoWord, opsoWord, show (t + 2 * L) / 2 = t / 2 + L by omega, show (t + 2 * L) % 2 = t % 2 by omega,
        show 2 * (t / 2 + L) = 2 * (t / 2) + 2 * L by ring, show 2 * (t / 2) + 2 * L + 1 = 2 * (t / 2) + 1 + 2 * L by ring, hp, hp])
    have h' : (2 ^ 20 : ℝ) ≤ (missing (2 ^ 20) ((List.range n).map (opsoWord (srcs i))) : ℕ) + ((2 * L : ℕ) : ℝ) := by exact_mod_cast h
    have h2 : ((2 * L : ℕ) : ℝ) ≤ 905504 := by exact_mod_cast hsmall
    clear h
    revert h'
    generalize missing (2 ^ 20) ((List.range n).map (opsoWord (srcs i))) = M
    intro h'
    norm_num at h' h2 ⊢
    linarith

/-- C135: diehard_oqso, six words from four numbers. -/
theorem C135_oqso (m : Nat) (T L : Nat) (hL : 0 < L) (hTL : T ∣ 4 * L) (hsmall : 6 * L ≤ 905486) (srcs : Nat → Src) (hT : ∀ i j, srcs i (j + T) = srcs i j) (n : Nat) :
    ∃ ps : List ℝ, ps.length = m ∧ (∀ i, ∀ h : i < ps.length, oqsoTest normalCdf (srcs i) n = .ok ps[i]) ∧ FailsLow ps := by
  refine ⟨(List.range m).map fun i => xtestEval normalCdf (missing (2 ^ 20) ((List.range n).map (oqsoWord (srcs i))) : ℕ) 141909.6005321316 294.6558723658, by rw [List.length_map, List.length_range],
    fun i h => ?_, high_fails m 141909.6005321316 294.6558723658 (by norm_num)
      (fun i => (missing (2 ^ 20) ((List.range n).map (oqsoWord (srcs i))) : ℕ)) (fun i _ => ?_) _ (by rw [List.length_map, List.length_range]) fun i h => by rw [List.getElem_map, List.getElem_range]⟩
  · rw [oqsoTest, C45_oqso, Res.bind_ok, List.getElem_map, List.getElem_range]
    rfl
  · have h := missing_period (2 ^ 20) n (6 * L) (by omega) (oqsoWord (srcs i)) (fun t => by
      have hp := period_mul (hT i) hTL
      have e : ∀ c, srcs i (4 * ((t + 6 * L) / 6) + c) = srcs i (4 * (t / 6) + c) := by
        intro c
        rw [show (t + 6 * L) / 6 = t / 6 + L by omega, show 4 * (t / 6 + L) + c = 4 * (t / 6) + c + 4 * L by ring, hp]
      simp only [oqsoWord, e, show (t + 6 * L) % 6 = t % 6 by omega])
    have h' : (2 ^ 20 : ℝ) ≤ (missing (2 ^ 20) ((List.range n).map (oqsoWord (srcs i))) : ℕ) + ((6 * L : ℕ) : ℝ) := by exact_mod_cast h
    have h2 : ((6 * L : ℕ) : ℝ) ≤ 905486 := by exact_mod_cast hsmall
    clear h
    revert h'
    generalize missing (2 ^ 20) ((List.range n).map (oqsoWord (srcs i))) = M
    intro h'
    norm_num at h' h2 ⊢
    linarith

/-- C135: diehard_dna, 32 words from ten numbers. -/
theorem C135_dna (m : Nat) (T L : Nat) (hL : 0 < L) (hTL : T ∣ 10 * L) (hsmall : 32 * L ≤ 905316) (r : Nat) (hr : 0 < r) (hr32 : r ≤ 32) (srcs : Nat → Src)
    (hs : ∀ i n, (srcs i n).toNat < 2 ^ r) (hT : ∀ i j, srcs i (j + T) = srcs i j) (n : Nat) :
    ∃ ps : List ℝ, ps.length = m ∧ (∀ i, ∀ h : i < ps.length, dnaTest normalCdf r (srcs i) n = .ok ps[i]) ∧ FailsLow ps := by
  refine ⟨(List.range m).map fun i => xtestEval normalCdf (missing256 (2 ^ 20) ((List.range n).map (dnaWord r (srcs i))) : ℕ) 141910.4026047629 337.2901506904, by rw [List.length_map, List.length_range],
    fun i h => ?_, high_fails m 141910.4026047629 337.2901506904 (by norm_num)
      (fun i => (missing256 (2 ^ 20) ((List.range n).map (dnaWord r (srcs i))) : ℕ)) (fun i _ => ?_) _ (by rw [List.length_map, List.length_range]) fun i h => by rw [List.getElem_map, List.getElem_range]⟩
  · rw [dnaTest, C45_dna r hr hr32 (srcs i) (hs i), Res.bind_ok, List.getElem_map, List.getElem_range]
    rfl
  · have h := (missing_period (2 ^ 20) n (32 * L) (by omega) (dnaWord r (srcs i)) (fun t => by
      have hp := period_mul (hT i) hTL
      have e : ∀ c, srcs i (11 + 10 * ((t + 32 * L) / 32) + c) = srcs i (11 + 10 * (t / 32) + c) := by
        intro c
        rw [show (t + 32 * L) / 32 = t / 32 + L by omega, show 11 + 10 * (t / 32 + L) + c = 11 + 10 * (t / 32) + c + 10 * L by ring, hp]
      simp only [dnaWord, e, show (t + 32 * L) % 32 = t % 32 by omega])).trans (Nat.add_le_add_right (missing_le_missing256 _ _) _)
    have h' : (2 ^ 20 : ℝ) ≤ (missing256 (2 ^ 20) ((List.range n).map (dnaWord r (srcs i))) : ℕ) + ((32 * L : ℕ) : ℝ) := by exact_mod_cast h
    have h2 : ((32 * L : ℕ) : ℝ) ≤ 905316 := by exact_mod_cast hsmall
    clear h
    revert h'
    generalize missing256 (2 ^ 20) ((List.range n).map (dnaWord r (srcs i))) = M
    intro h'
    norm_num at h' h2 ⊢
    linarith

/-- C135: diehard_bitstream, one word per bit. -/
theorem C135_bitstream (m : Nat) (T : Nat) (hT0 : 0 < T) (hsmall : T ≤ 28279) (srcs : Nat → Src) (hT : ∀ i j, srcs i (j + T) = srcs i j) (n : Nat) (hn : n ≤ 8388640) :
    ∃ ps : List ℝ, ps.length = m ∧ (∀ i, ∀ h : i < ps.length, bitstreamTest normalCdf (srcs i) n = .ok ps[i]) ∧ FailsLow ps := by
  refine ⟨(List.range m).map fun i => xtestEval normalCdf
      (missing256 (2 ^ 20) ((List.range n).map fun t => window (streamBit (srcs i)) (t + 8) 20) : ℕ) 141909 428, by rw [List.length_map, List.length_range],
    fun i h => ?_, high_fails m 141909 428 (by norm_num)
      (fun i => (missing256 (2 ^ 20) ((List.range n).map fun t => window (streamBit (srcs i)) (t + 8) 20) : ℕ)) (fun i _ => ?_) _ (by rw [List.length_map, List.length_range])
      fun i h => by rw [List.getElem_map, List.getElem_range]⟩
  · rw [bitstreamTest, C32_bitstream (srcs i) n hn, Res.bind_ok, List.getElem_map, List.getElem_range]
    rfl
  · have h := (missing_period (2 ^ 20) n (32 * T) (by omega) (fun t => window (streamBit (srcs i)) (t + 8) 20) (fun t => by
      have e : ∀ k, streamBit (srcs i) (t + 32 * T + 8 + k) = streamBit (srcs i) (t + 8 + k) := by
        intro k
        rw [streamBit, streamBit, show (t + 32 * T + 8 + k) / 32 = (t + 8 + k) / 32 + T by omega, hT,
          show (t + 32 * T + 8 + k) % 32 = (t + 8 + k) % 32 by omega]
      simp only [window, e])).trans (Nat.add_le_add_right (missing_le_missing256 _ _) _)
    have h' : (2 ^ 20 : ℝ) ≤ (missing256 (2 ^ 20) ((List.range n).map fun t => window (streamBit (srcs i)) (t + 8) 20) : ℕ) + ((32 * T : ℕ) : ℝ) := by exact_mod_cast h
    have h2 : ((32 * T : ℕ) : ℝ) ≤ 904928 := by exact_mod_cast (by omega : 32 * T ≤ 904928)
    clear h
    revert h'
    generalize missing256 (2 ^ 20) ((List.range n).map fun t => window (streamBit (srcs i)) (t + 8) 20) = M
    intro h'
    norm_num at h' h2 ⊢
    have h3 : (143621 : ℝ) ≤ M := by linarith
    exact_mod_cast h3

/-- C135: both tests of dab_opso2. -/
theorem C135_opso2 (m : Nat) (T L : Nat) (hL : 0 < L) (hTL : T ∣ 2 * L) (hsmall : 2 * L ≤ 16467817) (r : Nat) (hr : 24 ≤ r) (srcs : Nat → Src) (hT : ∀ i j, srcs i (j + T) = srcs i j) (n : Nat) :
    ∃ ps qs : List ℝ, ps.length = m ∧ qs.length = m ∧
      (∀ i, ∀ h : i < ps.length, ∀ h' : i < qs.length, opso2Test normalCdf r (srcs i) n = .ok (ps[i], qs[i])) ∧
      FailsLow ps ∧ FailsLow qs := by
  have hsm : ((2 * L : ℕ) : ℝ) ≤ 16467817 := by exact_mod_cast hsmall
  refine ⟨(List.range m).map fun i => xtestEval normalCdf (missing (2 ^ 24) ((List.range n).map (opso2Low (srcs i))) : ℕ) 307285.393182468 528.341514924662,
    (List.range m).map fun i => xtestEval normalCdf (missing (2 ^ 24) ((List.range n).map (opso2Pair (srcs i))) : ℕ) 307285.393182468 528.341514924662,
    by rw [List.length_map, List.length_range], by rw [List.length_map, List.length_range], fun i h h' => ?_,
    high_fails m 307285.393182468 528.341514924662 (by norm_num)
      (fun i => (missing (2 ^ 24) ((List.range n).map (opso2Low (srcs i))) : ℕ)) (fun i _ => ?_) _ (by rw [List.length_map, List.length_range]) (fun i h => by rw [List.getElem_map, List.getElem_range]),
    high_fails m 307285.393182468 528.341514924662 (by norm_num)
      (fun i => (missing (2 ^ 24) ((List.range n).map (opso2Pair (srcs i))) : ℕ)) (fun i _ => ?_) _ (by rw [List.length_map, List.length_range]) fun i h => by rw [List.getElem_map, List.getElem_range]⟩
  · rw [opso2Test, C45_opso2 r hr, Res.bind_ok, List.getElem_map, List.getElem_range, List.getElem_map, List.getElem_range]
    rfl
  · have h := missing_period (2 ^ 24) n (2 * L) (by omega) (opso2Low (srcs i)) (fun t => by rw [opso2Low, opso2Low, period_mul (hT i) hTL])
    have h' : (2 ^ 24 : ℝ) ≤ (missing (2 ^ 24) ((List.range n).map (opso2Low (srcs i))) : ℕ) + ((2 * L : ℕ) : ℝ) := by exact_mod_cast h
    clear h
    revert h'
    generalize missing (2 ^ 24) ((List.range n).map (opso2Low (srcs i))) = M
    intro h'
    norm_num at h' hsm ⊢
    linarith
  · have h := missing_period (2 ^ 24) n (2 * L) (by omega) (opso2Pair (srcs i)) (fun t => by
      have hp := period_mul (hT i) hTL
      rw [opso2Pair, opso2Pair, show (t + 2 * L) / 2 = t / 2 + L by omega, show (t + 2 * L) % 2 = t % 2 by omega,
        show 2 * (t / 2 + L) = 2 * (t / 2) + 2 * L by ring, show 2 * (t / 2) + 2 * L + 1 = 2 * (t / 2) + 1 + 2 * L by ring, hp, hp])
    have h' : (2 ^ 24 : ℝ) ≤ (missing (2 ^ 24) ((List.range n).map (opso2Pair (srcs i))) : ℕ) + ((2 * L : ℕ) : ℝ) := by exact_mod_cast h
    clear h
    revert h'
    generalize missing (2 ^ 24) ((List.range n).map (opso2Pair (srcs i))) = M
    intro h'
    norm_num at h' hsm ⊢
    linarith

/-- A generator of period 900000, here multiples of a large odd number, fails diehard_opso and both tests of dab_opso2 at any length, wherever each sample begins; one of
period 20000 fails diehard_bitstream at its default length. -/
example (start : Nat → Nat) (n : Nat) :
    (∃ ps : List ℝ, ps.length = 100 ∧
      (∀ i, ∀ h : i < ps.length, opsoTest normalCdf (fun j => BitVec.ofNat 32 ((start i + j) % 900000 * 2654435761)) n = .ok ps[i]) ∧ FailsLow ps) ∧
    (∃ ps qs : List ℝ, ps.length = 100 ∧ qs.length = 100 ∧
      (∀ i, ∀ h : i < ps.length, ∀ h' : i < qs.length,
        opso2Test normalCdf 32 (fun j => BitVec.ofNat 32 ((start i + j) % 900000 * 2654435761)) n = .ok (ps[i], qs[i])) ∧ FailsLow ps ∧ FailsLow qs) ∧
    ∃ ps : List ℝ, ps.length = 100 ∧
      (∀ i, ∀ h : i < ps.length, bitstreamTest normalCdf (fun j => BitVec.ofNat 32 ((start i + j) % 20000 * 2654435761)) 2097152 = .ok ps[i]) ∧ FailsLow ps := by
  have hp : ∀ (T a j : Nat), BitVec.ofNat 32 ((a + (j + T)) % T * 2654435761) = BitVec.ofNat 32 ((a + j) % T * 2654435761) := by
    intro T a j
    rw [← Nat.add_assoc, Nat.add_mod_right]
  exact ⟨C135_opso 100 900000 450000 (by norm_num) (by norm_num) (by norm_num) _ (fun i j => hp _ _ _) n,
    C135_opso2 100 900000 450000 (by norm_num) (by norm_num) (by norm_num) 32 (by norm_num) _ (fun i j => hp _ _ _) n,
    C135_bitstream 100 20000 (by norm_num) (by norm_num) _ (fun i j => hp _ _ _) 2097152 (by norm_num)⟩

end Dh
