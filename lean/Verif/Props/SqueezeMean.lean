import Verif.Model.SqueezeStat
import Verif.Proof.SqueezeBounds
import Verif.Props.SmallTests
/-
C93: the table of the squeeze test, and the mean of its statistic on random deviates.
-/
namespace Dh
open Spec

namespace Spec

/-- The product `k*U` of the model, for the deviates `U = (a + 1) / L`. -/
def gridProd {L : Nat} (s : Nat → Fin L) (k : Int) (p : Nat) : ℚ := (k : ℚ) * ((((s p).val : ℚ) + 1) / L)

/-- The cell of a number of steps: 6 or less, 7, ..., 47, 48. -/
def sqCell (j : Nat) : Nat := max 6 j - 6

/-- The probability of the cell `c`, for deviates with the denominator `L`. -/
noncomputable def sqProb (L : Nat) (a0 : Fin L) (c : Nat) : ℝ :=
  mean fun ω : Fin 48 → Fin L => if sqCell (sqSteps 48 2147483647 (padSeq a0 ω)) = c then (1 : ℝ) else 0

/-- The probability the test gives to the cell `c`. -/
def sqHyp (c : Nat) : ℚ := (squeezeTable.getD c 0 : ℚ) / 100000000

/-- A denominator that makes every step uniform: `⌈k*U⌉` takes each of the values 1, ..., k equally often, for every `k` below 2^31. -/
def FineGrid (L : Nat) : Prop := 0 < L ∧ ∀ i, 1 ≤ i → i ≤ 2147483647 → i ∣ L

end Spec

theorem fineGrid_exists (N : Nat) : ∃ L, 0 < L ∧ ∀ i, 1 ≤ i → i ≤ N → i ∣ L :=
  ⟨N.factorial, N.factorial_pos, fun _ h1 h2 => Nat.dvd_factorial h1 h2⟩

/-- Such denominators exist. -/
theorem exists_fineGrid : ∃ L, FineGrid L := fineGrid_exists _

/-! ### The trials of the program -/

theorem dropSeq_add {A : Type*} (i j : Nat) (s : Nat → A) : dropSeq j (dropSeq i s) = dropSeq (i + j) s := by
  funext q
  simp only [dropSeq]
  congr 1
  omega

theorem squeezeLoop_grid {L : Nat} (s : Nat → Fin L) : ∀ (left k j pos : Nat), 1 ≤ k → k < 2 ^ 31 →
    squeezeLoop (gridProd s) left (k : Int) j pos = .ok (j + sqSteps left k (dropSeq pos s), pos + sqSteps left k (dropSeq pos s))
  | 0, k, j, pos, _, _ => rfl
  | left + 1, k, j, pos, h1, h2 => by
    rw [squeezeLoop, sqSteps]
    by_cases hk : k = 1
    · subst hk
      rw [if_pos (by norm_num), if_pos rfl]
      rfl
    · rw [if_neg (by exact_mod_cast hk), if_neg hk]
      have hr := sqNext_range h1 (s pos)
      have hc : ⌈gridProd s (k : Int) pos⌉ = ((sqNext k (s pos) : ℕ) : Int) := sqNext_ceil k (s pos)
      rw [hc]
      simp only
      rw [if_neg (by omega), squeezeLoop_grid s left _ (j + 1) (pos + 1) hr.1 (by omega)]
      have e : dropSeq 1 (dropSeq pos s) = dropSeq (pos + 1) s := dropSeq_add pos 1 s
      have e0 : dropSeq pos s 0 = s pos := rfl
      rw [e, e0]
      congr 2 <;> omega

/-- The table of the program counts the trials. -/
theorem squeezeSamples_grid {L : Nat} (s : Nat → Fin L) : ∀ (todo pos : Nat) (x l : List Nat), Tallied (List.replicate 43 0) l x →
    ∃ x' pos', squeezeSamples (gridProd s) todo pos x = .ok (x', pos') ∧ Tallied (List.replicate 43 0)
      (l ++ (List.range todo).map fun t => trialAt (sqSteps 48 2147483647) (fun s => sqCell (sqSteps 48 2147483647 s)) t (dropSeq pos s)) x'
  | 0, pos, x, l, t => ⟨x, pos, rfl, by simpa using t⟩
  | todo + 1, pos, x, l, t => by
    have h1 := squeezeLoop_grid s 48 2147483647 0 pos (by norm_num) (by norm_num)
    have hle := sqSteps_le 48 2147483647 (dropSeq pos s)
    obtain ⟨x1, hx1, t1⟩ := t.bump (i := sqCell (sqSteps 48 2147483647 (dropSeq pos s))) (by rw [List.length_replicate, sqCell]; omega)
    obtain ⟨x2, pos2, e1, e2⟩ := squeezeSamples_grid s todo (pos + sqSteps 48 2147483647 (dropSeq pos s)) x1 _ t1
    refine ⟨x2, pos2, ?_, ?_⟩
    · rw [squeezeSamples, show (2147483647 : Int) = ((2147483647 : ℕ) : Int) from rfl, h1, Res.bind_ok]
      simp only [Nat.zero_add]
      rw [sqCell] at hx1
      rw [show (if sqSteps 48 2147483647 (dropSeq pos s) < 6 then 6 else sqSteps 48 2147483647 (dropSeq pos s)) =
        max 6 (sqSteps 48 2147483647 (dropSeq pos s)) from by split <;> omega, hx1, Res.bind_ok, e1]
    · rw [List.append_assoc] at e2
      rw [List.range_succ_eq_map, List.map_cons, List.map_map]
      have : ∀ t, trialAt (sqSteps 48 2147483647) (fun s => sqCell (sqSteps 48 2147483647 s)) (t + 1) (dropSeq pos s) =
          trialAt (sqSteps 48 2147483647) (fun s => sqCell (sqSteps 48 2147483647 s)) t (dropSeq (pos + sqSteps 48 2147483647 (dropSeq pos s)) s) := by
        intro t
        rw [trialAt, dropSeq_add]
      simp only [Function.comp_def, this]
      exact e2

theorem squeezeExpected_ok (n : Nat) : ∀ (todo i : Nat) (y : List ℚ), i + todo = 43 → y.length = 43 → (∀ k < i, y.getD k 0 = n * sqHyp k) →
    squeezeExpected n todo i y = .ok ((List.range 43).map fun c => (n : ℚ) * sqHyp c)
  | 0, i, y, hi, hy, h => by
    rw [squeezeExpected]
    congr 1
    refine List.ext_getElem (by simp [hy]) fun k h1 h2 => ?_
    have := h k (by omega)
    rw [List.getD_eq_getElem _ _ h1] at this
    rw [this]
    simp
  | todo + 1, i, y, hi, hy, h => by
    have hl : squeezeTable.length = 43 := rfl
    rw [squeezeExpected, rd_ok (by omega), Res.bind_ok, wr, if_pos (by omega), Res.bind_ok]
    refine squeezeExpected_ok n todo (i + 1) _ (by omega) (by simpa using hy) fun k hk => ?_
    rw [getD_set _ _ _ _ (by omega)]
    by_cases hki : k = i
    · subst hki
      rw [if_pos rfl, sqHyp, List.getD_eq_getElem _ _ (by omega)]
    · rw [if_neg hki]
      exact h k (by omega)

/-- The run of the test on deviates from the grid: Pearson's statistic of the trials. -/
theorem squeezeTest_grid {L : Nat} (s : Nat → Fin L) (n : Nat) :
    squeezeTest (gridProd s) n = vtestEval { vtestCreate 43 with
      x := (List.range 43).map fun c => (((List.range n).countP fun t =>
        decide (trialAt (sqSteps 48 2147483647) (fun s => sqCell (sqSteps 48 2147483647 s)) t s = c) : ℕ) : ℚ)
      y := (List.range 43).map fun c => (n : ℚ) * sqHyp c } := by
  obtain ⟨x, pos, e1, e2⟩ := squeezeSamples_grid s n 0 _ [] (Tallied.nil _)
  have hx : x.map (Nat.cast : Nat → ℚ) = (List.range 43).map fun c => (((List.range n).countP fun t =>
        decide (trialAt (sqSteps 48 2147483647) (fun s => sqCell (sqSteps 48 2147483647 s)) t s = c) : ℕ) : ℚ) := by
    have hl : x.length = 43 := by rw [e2.len, List.length_replicate]
    refine List.ext_getElem (by simp [hl]) fun c h1 h2 => ?_
    rw [List.getElem_map, List.getElem_map, List.getElem_range]
    have hc : c < x.length := by simpa using h1
    have g := e2.get c
    have z : (List.replicate 43 0).getD c 0 = 0 := by
      simp only [List.getD, List.getElem?_replicate]; split <;> rfl
    rw [z, Nat.zero_add, List.nil_append, List.getD_eq_getElem _ _ hc, List.count_eq_countP, List.countP_map] at g
    rw [g]
    congr 1
    refine List.countP_congr fun t _ => ?_
    have e0 : dropSeq 0 s = s := by funext q; simp [dropSeq]
    simp [e0]
  rw [squeezeTest, squeezeExpected_ok n 43 0 _ rfl (by simp [vtestCreate]) (fun k hk => absurd hk (Nat.not_lt_zero k)), Res.bind_ok, squeeze, e1, Res.bind_ok]
  simp only
  rw [hx]
  rfl

/-! ### The table -/

section
variable {L : Nat} (hL : FineGrid L) (a0 : Fin L)
include hL

theorem sqProb_mid (c : Nat) (h1 : 1 ≤ c) (h2 : c < 42) : sqProb L a0 c = hsum (c + 5) 2147483647 / 2147483647 := by
  have hm := sqLaw_mean hL.1 a0 48 2147483647 (c + 6) (by norm_num) hL.2 (by omega)
  have e : sqProb L a0 c = mean fun ω : Fin 48 → Fin L => if sqSteps 48 2147483647 (padSeq a0 ω) = c + 6 then (1 : ℝ) else 0 := by
    refine mean_congr fun ω => ?_
    have : sqCell (sqSteps 48 2147483647 (padSeq a0 ω)) = c ↔ sqSteps 48 2147483647 (padSeq a0 ω) = c + 6 := by rw [sqCell]; omega
    simp only [this]
  have hc := sqLaw_closed (c + 5) 2147483647 (by norm_num)
  rw [e, hm, ← hc]
  push_cast
  rw [mul_div_cancel_left₀ _ (by norm_num)]

theorem sqProb_zero : sqProb L a0 0 = (∑ j ∈ Finset.range 6, (hsum j 2147483647 : ℝ)) / 2147483647 := by
  haveI : Nonempty (Fin L) := ⟨a0⟩
  have e : sqProb L a0 0 = mean fun ω : Fin 48 → Fin L => ∑ j ∈ Finset.range 7, if sqSteps 48 2147483647 (padSeq a0 ω) = j then (1 : ℝ) else 0 := by
    refine mean_congr fun ω => ?_
    rw [Finset.sum_ite_eq]
    have : sqCell (sqSteps 48 2147483647 (padSeq a0 ω)) = 0 ↔ sqSteps 48 2147483647 (padSeq a0 ω) ∈ Finset.range 7 := by
      rw [sqCell, Finset.mem_range]; omega
    simp only [this]
  rw [e, mean_sum, Finset.sum_congr rfl fun j hj => sqLaw_mean hL.1 a0 48 2147483647 j (by norm_num) hL.2 (by have := Finset.mem_range.1 hj; omega),
    Finset.sum_range_succ', Finset.sum_div]
  have h0 : sqLaw 0 2147483647 = 0 := by rw [sqLaw, if_neg (by norm_num)]
  rw [h0, Rat.cast_zero, add_zero]
  refine Finset.sum_congr rfl fun j _ => ?_
  have hc := sqLaw_closed j 2147483647 (by norm_num)
  rw [← hc]
  push_cast
  rw [mul_div_cancel_left₀ _ (by norm_num)]

theorem sqProb_sum : ∑ c ∈ Finset.range 43, sqProb L a0 c = 1 := by
  haveI : Nonempty (Fin L) := ⟨a0⟩
  simp only [sqProb]
  rw [← mean_sum]
  refine Eq.trans (mean_congr fun ω => ?_) (mean_const (Ω := Fin 48 → Fin L) (1 : ℝ))
  rw [Finset.sum_ite_eq, if_pos]
  have := sqSteps_le 48 2147483647 (padSeq a0 ω)
  rw [Finset.mem_range, sqCell]
  omega

end

/-- The bounds of a cell. -/
def cellLo (c : Nat) : Nat := if c = 0 then ∑ j ∈ Finset.range 6, hsumLo.getD j 0 else hsumLo.getD (c + 5) 0
def cellHi (c : Nat) : Nat := if c = 0 then ∑ j ∈ Finset.range 6, hsumHi.getD j 0 else hsumHi.getD (c + 5) 0

theorem cell_check : ∀ c < 42, squeezeTable.getD c 0 * (2147483647 * 100) ≤ cellLo c + 125 * 2147483647 ∧
    cellHi c ≤ squeezeTable.getD c 0 * (2147483647 * 100) + 125 * 2147483647 := by decide +kernel

theorem cell_check_last : (∑ c ∈ Finset.range 42, cellHi c) + squeezeTable.getD 42 0 * (2147483647 * 100) ≤ 2147483647 * 10000000000 + 125 * 2147483647 ∧
    2147483647 * 10000000000 ≤ (∑ c ∈ Finset.range 42, cellLo c) + squeezeTable.getD 42 0 * (2147483647 * 100) + 125 * 2147483647 := by
  decide +kernel

theorem sqProb_bounds {L : Nat} (hL : FineGrid L) (a0 : Fin L) (c : Nat) (hc : c < 42) :
    (cellLo c : ℝ) ≤ 10000000000 * 2147483647 * sqProb L a0 c ∧ 10000000000 * 2147483647 * sqProb L a0 c ≤ cellHi c := by
  rw [cellLo, cellHi]
  by_cases h0 : c = 0
  · subst h0
    rw [if_pos rfl, if_pos rfl, sqProb_zero hL a0, mul_assoc, mul_div_cancel₀ _ (by norm_num), Finset.mul_sum]
    push_cast
    exact ⟨Finset.sum_le_sum fun j hj => (hsum_bounds j (by have := Finset.mem_range.1 hj; omega)).1,
      Finset.sum_le_sum fun j hj => (hsum_bounds j (by have := Finset.mem_range.1 hj; omega)).2⟩
  · rw [if_neg h0, if_neg h0, sqProb_mid hL a0 c (by omega) hc, mul_assoc, mul_div_cancel₀ _ (by norm_num)]
    exact hsum_bounds (c + 5) (by omega)

/-- **C93.** Every entry of the table of the squeeze test is within 1.25e-8 of the probability of its cell. -/
theorem C93_table {L : Nat} (hL : FineGrid L) (a0 : Fin L) (c : Nat) (hc : c < 43) : |sqProb L a0 c - sqHyp c| ≤ 1.25e-8 := by
  have hq : ∀ c, (sqHyp c : ℝ) = (squeezeTable.getD c 0 : ℝ) / 100000000 := fun c => by rw [sqHyp]; push_cast; rfl
  rw [hq, abs_le]
  rcases Nat.lt_or_ge c 42 with h | h
  · have hb := sqProb_bounds hL a0 c h
    obtain ⟨k1, k2⟩ := cell_check c h
    generalize squeezeTable.getD c 0 = T at *
    have k1' : (T : ℝ) * (2147483647 * 100) ≤ cellLo c + 125 * 2147483647 := by exact_mod_cast k1
    have k2' : (cellHi c : ℝ) ≤ T * (2147483647 * 100) + 125 * 2147483647 := by exact_mod_cast k2
    constructor <;> linarith [hb.1, hb.2]
  · have : c = 42 := by omega
    subst this
    have hs := sqProb_sum hL a0
    rw [Finset.sum_range_succ] at hs
    obtain ⟨k1, k2⟩ := cell_check_last
    generalize squeezeTable.getD 42 0 = T at *
    have b1 : ∑ c ∈ Finset.range 42, (cellLo c : ℝ) ≤ 10000000000 * 2147483647 * ∑ c ∈ Finset.range 42, sqProb L a0 c := by
      rw [Finset.mul_sum]
      exact Finset.sum_le_sum fun c hc => (sqProb_bounds hL a0 c (Finset.mem_range.1 hc)).1
    have b2 : 10000000000 * 2147483647 * ∑ c ∈ Finset.range 42, sqProb L a0 c ≤ ∑ c ∈ Finset.range 42, (cellHi c : ℝ) := by
      rw [Finset.mul_sum]
      exact Finset.sum_le_sum fun c hc => (sqProb_bounds hL a0 c (Finset.mem_range.1 hc)).2
    have k1' : (∑ c ∈ Finset.range 42, (cellHi c : ℝ)) + T * (2147483647 * 100) ≤ 2147483647 * 10000000000 + 125 * 2147483647 := by exact_mod_cast k1
    have k2' : (2147483647 : ℝ) * 10000000000 ≤ (∑ c ∈ Finset.range 42, (cellLo c : ℝ)) + T * (2147483647 * 100) + 125 * 2147483647 := by exact_mod_cast k2
    constructor <;> linarith

/-- The entries of the table add up to 1. -/
theorem C93_table_sum : ∑ c ∈ Finset.range 43, sqHyp c = 1 := by
  have h : ∑ c ∈ Finset.range 43, squeezeTable.getD c 0 = 100000000 := by decide +kernel
  simp only [sqHyp]
  rw [← Finset.sum_div, ← Nat.cast_sum, h]
  norm_num

/-! ### The mean of the statistic -/

/-- **C93.** The mean of the statistic over `n` trials. -/
theorem C93_mean {L : Nat} (a0 : Fin L) (n m : Nat) (hn : 0 < n) (hm : 48 * n ≤ m) :
    ∃ w : (Fin m → Fin L) → Vtest, (∀ ω, squeezeTest (gridProd (padSeq a0 ω)) n = .ok (w ω)) ∧
      (mean fun ω => ((w ω).chisq : ℝ)) = ∑ c ∈ (Finset.range 43).filter (fun c => 5 ≤ n * sqHyp c), cellMean n (sqProb L a0 c) (sqHyp c) +
        (if 5 ≤ n * ∑ c ∈ (Finset.range 43).filter (fun c => ¬ 5 ≤ n * sqHyp c), sqHyp c then
          cellMean n (∑ c ∈ (Finset.range 43).filter (fun c => ¬ 5 ≤ n * sqHyp c), sqProb L a0 c)
            (∑ c ∈ (Finset.range 43).filter (fun c => ¬ 5 ≤ n * sqHyp c), (sqHyp c : ℝ)) else 0) ∧
      ∀ ω, (w ω).ndof = (((Finset.range 43).filter (fun c => 5 ≤ n * sqHyp c)).card +
        (if 5 ≤ n * ∑ c ∈ (Finset.range 43).filter (fun c => ¬ 5 ≤ n * sqHyp c), sqHyp c then 1 else 0) + (2 ^ 32 - 1)) % 2 ^ 32 := by
  haveI : Nonempty (Fin L) := ⟨a0⟩
  have htr := (sqSteps_stops L 48 2147483647 sqCell).trials a0 (K := 43) (n := n) (m := m)
    (fun s => by have := sqSteps_le 48 2147483647 s; rw [sqCell]; omega) hm
  obtain ⟨w, h1, h2, h3⟩ := C87_vtest_mean htr hn sqHyp
  refine ⟨w, fun ω => ?_, h2, h3⟩
  rw [squeezeTest_grid]
  exact h1 ω

theorem cellMean_near (n : Nat) (hn : 0 < n) {p q ε : ℝ} (hq : 0 < q) (hq1 : q ≤ 1) (h : |p - q| ≤ ε) :
    |cellMean n p q - (1 - q)| ≤ (ε + n * ε ^ 2) / q := by
  have hn1 : (1 : ℝ) ≤ n := by exact_mod_cast hn
  have hε : 0 ≤ ε := (abs_nonneg _).trans h
  have e : cellMean n p q - (1 - q) = ((p - q) * (1 - 2 * q) + (n - 1) * (p - q) ^ 2) / q := by
    rw [cellMean]
    field_simp
    ring
  rw [e, abs_div, abs_of_pos hq]
  refine div_le_div_of_nonneg_right ?_ hq.le
  have a : |(p - q) * (1 - 2 * q)| ≤ ε := by
    rw [abs_mul]
    have : |1 - 2 * q| ≤ 1 := abs_le.2 ⟨by linarith, by linarith⟩
    calc |p - q| * |1 - 2 * q| ≤ ε * 1 := mul_le_mul h this (abs_nonneg _) hε
      _ = ε := mul_one _
  have b : |((n : ℝ) - 1) * (p - q) ^ 2| ≤ n * ε ^ 2 := by
    rw [abs_mul, abs_of_nonneg (by linarith : (0 : ℝ) ≤ n - 1), abs_of_nonneg (sq_nonneg _), ← sq_abs (p - q)]
    exact mul_le_mul (by linarith) (pow_le_pow_left₀ (abs_nonneg _) h 2) (sq_nonneg _) (by linarith)
  exact (abs_add_le _ _).trans (add_le_add a b)

/-- Cells that have nearly the probabilities they are given. -/
theorem cellMean_sum (n : Nat) (hn : 0 < n) (S : Finset Nat) (p q : Nat → ℝ) (ε : ℝ) (h : ∀ c ∈ S, 0 < q c ∧ q c ≤ 1 ∧ |p c - q c| ≤ ε) :
    |∑ c ∈ S, cellMean n (p c) (q c) - (S.card - ∑ c ∈ S, q c)| ≤ (ε + n * ε ^ 2) * ∑ c ∈ S, 1 / q c := by
  have e : ∑ c ∈ S, cellMean n (p c) (q c) - (S.card - ∑ c ∈ S, q c) = ∑ c ∈ S, (cellMean n (p c) (q c) - (1 - q c)) := by
    rw [Finset.sum_sub_distrib, Finset.sum_sub_distrib]
    simp
  rw [e, Finset.mul_sum]
  refine (Finset.abs_sum_le_sum_abs _ _).trans (Finset.sum_le_sum fun c hc => ?_)
  obtain ⟨h1, h2, h3⟩ := h c hc
  rw [mul_one_div]
  exact cellMean_near n hn h1 h2 h3

theorem sqHyp_pos : ∀ c < 43, 0 < (sqHyp c : ℝ) ∧ (sqHyp c : ℝ) ≤ 1 := by
  intro c hc
  have h : ∀ c < 43, 1 ≤ squeezeTable.getD c 0 ∧ squeezeTable.getD c 0 ≤ 100000000 := by decide +kernel
  obtain ⟨h1, h2⟩ := h c hc
  rw [sqHyp]
  push_cast
  generalize squeezeTable.getD c 0 = T at *
  have h1' : (1 : ℝ) ≤ T := by exact_mod_cast h1
  have h2' : (T : ℝ) ≤ 100000000 := by exact_mod_cast h2
  constructor
  · exact div_pos (by linarith) (by norm_num)
  · rw [div_le_one (by norm_num)]
    exact h2'

/-- The reciprocals of the entries, rounded up, for a kernel computation. -/
theorem recip_le (S : Finset Nat) (B : Nat) (hS : ∀ c ∈ S, c < 43) (h : ∑ c ∈ S, (100000000 / squeezeTable.getD c 0 + 1) ≤ B) :
    ∑ c ∈ S, 1 / (sqHyp c : ℝ) ≤ B := by
  refine le_trans ?_ (Nat.cast_le.2 h)
  rw [Nat.cast_sum]
  refine Finset.sum_le_sum fun c hc => ?_
  have hp := (sqHyp_pos c (hS c hc)).1
  rw [sqHyp] at hp ⊢
  push_cast at hp ⊢
  generalize squeezeTable.getD c 0 = T at *
  have hT : (0 : ℝ) < T := by
    by_contra h0
    have := div_nonpos_of_nonpos_of_nonneg (not_lt.1 h0) (by norm_num : (0 : ℝ) ≤ 100000000)
    linarith
  have hT' : 0 < T := by exact_mod_cast hT
  rw [one_div_div, div_le_iff₀ hT]
  have := Nat.lt_div_mul_add (a := 100000000) hT'
  have h2 : (100000000 : ℕ) ≤ (100000000 / T + 1) * T := by rw [Nat.add_mul, Nat.one_mul]; exact this.le
  exact_mod_cast h2

/-- **C93.** With the 100000 trials of a default run the cells of 6 or less and of 45 or more steps are taken together, the test has 38
degrees of freedom, and on random deviates the mean of the statistic is 38 up to 0.002. -/
theorem C93_default {L : Nat} (hL : FineGrid L) (a0 : Fin L) (m : Nat) (hm : 4800000 ≤ m) :
    ∃ w : (Fin m → Fin L) → Vtest, (∀ ω, squeezeTest (gridProd (padSeq a0 ω)) 100000 = .ok (w ω) ∧ (w ω).ndof = 38) ∧
      |(mean fun ω => ((w ω).chisq : ℝ)) - 38| ≤ 0.002 := by
  obtain ⟨w, h1, h2, h3⟩ := C93_mean a0 100000 m (by norm_num) (by omega)
  have hiff : ∀ c, 5 ≤ ((100000 : ℕ) : ℚ) * sqHyp c ↔ 5000 ≤ squeezeTable.getD c 0 := by
    intro c
    rw [sqHyp]
    have : ((100000 : ℕ) : ℚ) * ((squeezeTable.getD c 0 : ℚ) / 100000000) = (squeezeTable.getD c 0 : ℚ) / 1000 := by push_cast; ring
    rw [this, le_div_iff₀ (by norm_num), show (5 : ℚ) * 1000 = ((5000 : ℕ) : ℚ) by norm_num, Nat.cast_le]
  have hS : (Finset.range 43).filter (fun c => 5 ≤ ((100000 : ℕ) : ℚ) * sqHyp c) = Finset.Icc 1 38 := by
    rw [Finset.filter_congr fun c _ => hiff c]
    decide +kernel
  have hR : (Finset.range 43).filter (fun c => ¬ 5 ≤ ((100000 : ℕ) : ℚ) * sqHyp c) = {0, 39, 40, 41, 42} := by
    rw [Finset.filter_congr fun c _ => not_congr (hiff c)]
    decide +kernel
  have hRs : ∑ c ∈ ({0, 39, 40, 41, 42} : Finset Nat), sqHyp c = 9278 / 100000000 := by
    simp only [sqHyp]
    rw [← Finset.sum_div, ← Nat.cast_sum]
    have : ∑ c ∈ ({0, 39, 40, 41, 42} : Finset Nat), squeezeTable.getD c 0 = 9278 := by decide +kernel
    rw [this]
    norm_num
  have hRr : ∑ c ∈ ({0, 39, 40, 41, 42} : Finset Nat), (sqHyp c : ℝ) = 9278 / 100000000 := by
    rw [← Rat.cast_sum, hRs]
    norm_num
  have hpool : 5 ≤ ((100000 : ℕ) : ℚ) * ∑ c ∈ ({0, 39, 40, 41, 42} : Finset Nat), sqHyp c := by rw [hRs]; norm_num
  rw [hS, hR, if_pos hpool] at h2
  refine ⟨w, fun ω => ⟨h1 ω, ?_⟩, ?_⟩
  · rw [h3, hS, hR, if_pos hpool, Nat.card_Icc]
    norm_num
  · rw [h2]
    have a := cellMean_sum 100000 (by norm_num) (Finset.Icc 1 38) (fun c => sqProb L a0 c) (fun c => (sqHyp c : ℝ)) 1.25e-8 (fun c hc => by
      have := Finset.mem_Icc.1 hc
      have hp := sqHyp_pos c (by omega)
      exact ⟨hp.1, hp.2, C93_table hL a0 c (by omega)⟩)
    have r := recip_le (Finset.Icc 1 38) 100000 (fun c hc => by have := Finset.mem_Icc.1 hc; omega) (by decide +kernel)
    have b := cellMean_near 100000 (by norm_num) (p := ∑ c ∈ ({0, 39, 40, 41, 42} : Finset Nat), sqProb L a0 c) (q := 9278 / 100000000) (ε := 5 * 1.25e-8)
      (by norm_num) (by norm_num) (by
        rw [← hRr, ← Finset.sum_sub_distrib]
        refine (Finset.abs_sum_le_sum_abs _ _).trans ?_
        have : ∀ c ∈ ({0, 39, 40, 41, 42} : Finset Nat), |sqProb L a0 c - (sqHyp c : ℝ)| ≤ 1.25e-8 := fun c hc =>
          C93_table hL a0 c (by simp only [Finset.mem_insert, Finset.mem_singleton] at hc; omega)
        refine (Finset.sum_le_card_nsmul _ _ _ this).trans ?_
        rw [show ({0, 39, 40, 41, 42} : Finset Nat).card = 5 by decide]
        norm_num)
    have hq : ∑ c ∈ Finset.Icc 1 38, (sqHyp c : ℝ) = 1 - 9278 / 100000000 := by
      have h : ∑ c ∈ Finset.Icc 1 38, squeezeTable.getD c 0 = 100000000 - 9278 := by decide +kernel
      have : ∑ c ∈ Finset.Icc 1 38, sqHyp c = 1 - 9278 / 100000000 := by
        simp only [sqHyp]
        rw [← Finset.sum_div, ← Nat.cast_sum, h]
        norm_num
      rw [← Rat.cast_sum, this]
      norm_num
    rw [hRr]
    rw [hq, Nat.card_Icc] at a
    have r' := mul_le_mul_of_nonneg_left r (show (0 : ℝ) ≤ 1.25e-8 + ((100000 : ℕ) : ℝ) * 1.25e-8 ^ 2 by norm_num)
    have a' := a.trans r'
    generalize (∑ c ∈ Finset.Icc 1 38, cellMean 100000 (sqProb L a0 c) (sqHyp c : ℝ)) = A at *
    generalize cellMean 100000 (∑ c ∈ ({0, 39, 40, 41, 42} : Finset Nat), sqProb L a0 c) (9278 / 100000000) = B at *
    rw [abs_le] at a' b ⊢
    norm_num at a' b ⊢
    constructor <;> linarith [a'.1, a'.2, b.1, b.2]

/-- **C93.** From 509165 trials on every cell counts, the test has 42 degrees of freedom, and on random deviates the mean of the
statistic exceeds or misses 42 by at most 0.007 + 8e-11 n: the error of the table stays invisible for tens of millions of trials. -/
theorem C93_many {L : Nat} (hL : FineGrid L) (a0 : Fin L) (n m : Nat) (hn : 509165 ≤ n) (hm : 48 * n ≤ m) :
    ∃ w : (Fin m → Fin L) → Vtest, (∀ ω, squeezeTest (gridProd (padSeq a0 ω)) n = .ok (w ω) ∧ (w ω).ndof = 42) ∧
      |(mean fun ω => ((w ω).chisq : ℝ)) - 42| ≤ 0.007 + 8e-11 * n := by
  obtain ⟨w, h1, h2, h3⟩ := C93_mean a0 n m (by omega) hm
  have hbig : ∀ c ∈ Finset.range 43, 5 ≤ (n : ℚ) * sqHyp c := by
    intro c hc
    have h : ∀ c < 43, 982 ≤ squeezeTable.getD c 0 := by decide +kernel
    have hT : (982 : ℚ) ≤ (squeezeTable.getD c 0 : ℚ) := by exact_mod_cast h c (Finset.mem_range.1 hc)
    have hn' : (509165 : ℚ) ≤ n := by exact_mod_cast hn
    rw [sqHyp]
    generalize (squeezeTable.getD c 0 : ℚ) = T at *
    rw [← mul_div_assoc, le_div_iff₀ (by norm_num)]
    nlinarith
  have hS : (Finset.range 43).filter (fun c => 5 ≤ (n : ℚ) * sqHyp c) = Finset.range 43 := Finset.filter_true_of_mem hbig
  have hR : (Finset.range 43).filter (fun c => ¬ 5 ≤ (n : ℚ) * sqHyp c) = ∅ := Finset.filter_false_of_mem fun c hc => not_not.2 (hbig c hc)
  have hpool : ¬ 5 ≤ (n : ℚ) * ∑ c ∈ (∅ : Finset Nat), sqHyp c := by simp
  rw [hS, hR, if_neg hpool, add_zero] at h2
  refine ⟨w, fun ω => ⟨h1 ω, ?_⟩, ?_⟩
  · rw [h3, hS, hR, if_neg hpool, Finset.card_range]
    norm_num
  · rw [h2]
    have a := cellMean_sum n (by omega) (Finset.range 43) (fun c => sqProb L a0 c) (fun c => (sqHyp c : ℝ)) 1.25e-8 (fun c hc => by
      have hc' := Finset.mem_range.1 hc
      have hp := sqHyp_pos c hc'
      exact ⟨hp.1, hp.2, C93_table hL a0 c hc'⟩)
    have r := recip_le (Finset.range 43) 500000 (fun c hc => Finset.mem_range.1 hc) (by decide +kernel)
    have hq : ∑ c ∈ Finset.range 43, (sqHyp c : ℝ) = 1 := by
      rw [← Rat.cast_sum, C93_table_sum, Rat.cast_one]
    rw [hq, Finset.card_range] at a
    have hn0 : (0 : ℝ) ≤ n := Nat.cast_nonneg n
    have r' := mul_le_mul_of_nonneg_left r (show (0 : ℝ) ≤ 1.25e-8 + (n : ℝ) * 1.25e-8 ^ 2 by
      have := mul_nonneg hn0 (sq_nonneg (1.25e-8 : ℝ))
      linarith)
    have a' := a.trans r'
    have e : ((43 : ℕ) : ℝ) - 1 = 42 := by norm_num
    rw [e] at a'
    refine a'.trans ?_
    push_cast
    linarith

/-- The deviate 1 never changes the number: 48 steps.  The deviate 1/2^31 leads to 1 at once. -/
example : sqCell (sqSteps 48 2147483647 fun _ => (⟨2 ^ 31 - 1, by norm_num⟩ : Fin (2 ^ 31))) = 42 ∧
    sqCell (sqSteps 48 2147483647 fun _ => (⟨0, by norm_num⟩ : Fin (2 ^ 31))) = 0 := by decide +kernel

/-- From 3 a step leads to 1, 2 and 3 for two each of the six deviates with the denominator 6. -/
example : ((List.range 6).map fun a => if h : a < 6 then sqNext 3 (⟨a, h⟩ : Fin 6) else 0) = [1, 1, 2, 2, 3, 3] := by decide +kernel

/-- From 3: one step with probability 1/3, two with 5/18. -/
example : sqLaw 0 3 = 0 ∧ sqLaw 1 3 = 1 / 3 ∧ sqLaw 2 3 = 5 / 18 := by
  refine ⟨by norm_num [sqLaw], by norm_num [sqLaw, Finset.sum_Icc_succ_top], by norm_num [sqLaw, Finset.sum_Icc_succ_top]⟩

/-- A hundred trials in which every draw is 1/2: 31 steps each, and a statistic far from the 10 degrees of freedom. -/
example : (squeezeTest (gridProd fun _ => (⟨0, by norm_num⟩ : Fin 2)) 100).map (fun v => (v.ndof, v.chisq)) = .ok (10, 6989483900 / 30105161) := by decide +kernel

end Dh
