import Mathlib.Tactic.NormNum
import Mathlib.Data.List.GetD
import Mathlib.Tactic.IntervalCases
import Verif.Model.CrapsStat
import Verif.Proof.CrapsLaw
import Verif.Proof.RatLaw
import Verif.Props.Count1sMean
/-
C100: the two statistics of the craps test on rolls of a fair die.
-/
set_option linter.unusedSimpArgs false
namespace Dh
open MeasureTheory Measure Spec

/-! ### The cells of a game -/

/-- The class that the code counts, and the result, as one number. -/
def gameCell (g : Nat × Bool) : Fin 42 := ⟨min (g.1 - 1) 20 + if g.2 then 21 else 0, by split <;> omega⟩

/-- The sum of the probabilities of the games of up to 20 throws. -/
def shortProb (w : Bool) : Nat → ℚ
  | 0 => 0
  | n + 1 => shortProb w n + gameProb w (n + 1)

/-- The probability of class `c` with result `w`. -/
def classProb (w : Bool) (c : Nat) : ℚ :=
  if c < 20 then gameProb w (c + 1) else (if w then 244 / 495 else 251 / 495) - shortProb w 20

/-- The probability of a cell. -/
def cellProb (e : Fin 42) : ℚ := classProb (decide (21 ≤ e.val)) (e.val % 21)

theorem hasSum_tail (w : Bool) : HasSum (fun n => (gameProb w (n + 21) : ℝ)) (classProb w 20 : ℝ) := by
  have h := (hasSum_nat_add_iff' 20).2 (hasSum_gameProb w)
  have hs : ∀ n, (shortProb w n : ℝ) = ∑ i ∈ Finset.range n, (gameProb w (i + 1) : ℝ) := by
    intro n
    induction n with
    | zero => simp [shortProb]
    | succ n ih => rw [shortProb, Rat.cast_add, ih, Finset.sum_range_succ]
  rw [← hs] at h
  have e : (classProb w 20 : ℝ) = (if w then 244 / 495 else 251 / 495) - (shortProb w 20 : ℝ) := by
    rw [classProb, if_neg (lt_irrefl 20), Rat.cast_sub]
    cases w <;> simp
  rw [e]
  exact h

theorem gameCell_eq (w : Bool) (n : Nat) (e : Fin 42) : gameCell (n + 1, w) = e ↔ w = decide (21 ≤ e.val) ∧ min n 20 = e.val % 21 := by
  rw [Fin.ext_iff, gameCell]
  simp only [Nat.add_sub_cancel]
  have := e.2
  cases w
  · rw [if_neg (by simp)]
    constructor
    · intro h
      refine ⟨(decide_eq_false (by omega)).symm, by omega⟩
    · rintro ⟨h1, h2⟩
      have := of_decide_eq_false h1.symm
      omega
  · rw [if_pos rfl]
    constructor
    · intro h
      refine ⟨(decide_eq_true (by omega)).symm, by omega⟩
    · rintro ⟨h1, h2⟩
      have := of_decide_eq_true h1.symm
      omega

/-- The probability that a game falls into a cell. -/
theorem kindProb_cell (e : Fin 42) : kindProb (fun g => gameCell g = e) = ENNReal.ofReal (cellProb e) := by
  refine kindProb_eq _ _ ?_
  simp only [gameCell_eq]
  rw [cellProb]
  set w0 := decide (21 ≤ e.val)
  have hone : ∀ n, ((if true = w0 ∧ min n 20 = e.val % 21 then gameProb true (n + 1) else 0 : ℚ) : ℝ) +
      ((if false = w0 ∧ min n 20 = e.val % 21 then gameProb false (n + 1) else 0 : ℚ) : ℝ) =
      if min n 20 = e.val % 21 then (gameProb w0 (n + 1) : ℝ) else 0 := by
    intro n
    cases w0 <;> by_cases h : min n 20 = e.val % 21 <;> simp [h]
  simp only [hone]
  by_cases hc : e.val % 21 < 20
  · rw [classProb, if_pos hc]
    convert hasSum_single (e.val % 21) (f := fun n => if min n 20 = e.val % 21 then (gameProb w0 (n + 1) : ℝ) else 0) ?_ using 1
    · rw [if_pos (by omega)]
    · intro n hn
      rw [if_neg (by omega)]
  · have h20 : e.val % 21 = 20 := by omega
    rw [h20, ← hasSum_nat_add_iff' 20]
    have hz : ∑ i ∈ Finset.range 20, (if min i 20 = 20 then (gameProb w0 (i + 1) : ℝ) else 0) = 0 := by
      refine Finset.sum_eq_zero fun i hi => ?_
      have := Finset.mem_range.1 hi
      rw [if_neg (by omega)]
    rw [hz, sub_zero]
    have : (fun n => if min (n + 20) 20 = 20 then (gameProb w0 (n + 20 + 1) : ℝ) else 0) = fun n => (gameProb w0 (n + 21) : ℝ) := by
      funext n
      rw [if_pos (by omega)]
    rw [this]
    exact hasSum_tail w0

theorem classProb_nonneg (w : Bool) (c : Nat) : 0 ≤ classProb w c := by
  by_cases hc : c < 20
  · rw [classProb, if_pos hc]; exact gameProb_nonneg _ _
  · have h := hasSum_tail w
    have : (0 : ℝ) ≤ (classProb w 20 : ℝ) := h.nonneg fun n => by exact_mod_cast gameProb_nonneg w (n + 21)
    have e : classProb w c = classProb w 20 := by simp only [classProb, if_neg hc, if_neg (lt_irrefl 20)]
    rw [e]
    exact_mod_cast this

theorem cellProb_nonneg (e : Fin 42) : 0 ≤ cellProb e := classProb_nonneg _ _

theorem sum_cells {M : Type*} [AddCommMonoid M] (f : Bool → Nat → M) : ∑ e : Fin 42, f (decide (21 ≤ e.val)) (e.val % 21) =
    ∑ c ∈ Finset.range 21, f false c + ∑ c ∈ Finset.range 21, f true c := by
  rw [← Fin.sum_univ_eq_sum_range, ← Fin.sum_univ_eq_sum_range, ← Equiv.sum_comp (finSumFinEquiv (m := 21) (n := 21)), Fintype.sum_sum_type]
  refine congrArg₂ (· + ·) ?_ ?_
  · refine Finset.sum_congr rfl fun c _ => ?_
    have h1 : (finSumFinEquiv (m := 21) (n := 21) (Sum.inl c)).val = c.val := rfl
    have h2 : decide (21 ≤ (finSumFinEquiv (m := 21) (n := 21) (Sum.inl c)).val) = false := decide_eq_false (by have := c.2; omega)
    rw [h2, h1, Nat.mod_eq_of_lt c.2]
  · refine Finset.sum_congr rfl fun c _ => ?_
    have h1 : (finSumFinEquiv (m := 21) (n := 21) (Sum.inr c)).val = 21 + c.val := rfl
    have h2 : decide (21 ≤ (finSumFinEquiv (m := 21) (n := 21) (Sum.inr c)).val) = true := decide_eq_true (by omega)
    rw [h2, h1, show (21 + c.val) % 21 = c.val from by have := c.2; omega]

theorem sum_classProb (w : Bool) : ∑ c ∈ Finset.range 21, classProb w c = if w then 244 / 495 else 251 / 495 := by
  have hs : ∀ n ≤ 20, ∑ c ∈ Finset.range n, classProb w c = shortProb w n := by
    intro n
    induction n with
    | zero => intro _; rfl
    | succ n ih =>
      intro h
      rw [Finset.sum_range_succ, ih (by omega), shortProb, classProb, if_pos (by omega)]
  rw [Finset.sum_range_succ, hs 20 le_rfl, classProb, if_neg (by omega)]
  ring

theorem sum_cellProb : ∑ e, cellProb e = 1 := by
  have := sum_cells classProb
  simp only [cellProb]
  rw [this, sum_classProb, sum_classProb]
  norm_num

theorem classProb_both (c : Nat) (hc : c < 21) : classProb false c + classProb true c = crapsY c := by
  by_cases h : c < 20
  · rw [C35_classes c h, classProb, classProb, if_pos h, if_pos h, add_comm]
  · have h20 : c = 20 := by omega
    subst h20
    have h1 := (hasSum_tail true).add (hasSum_tail false)
    have h2 := h1.unique C35_last_class
    rw [← Rat.cast_add] at h2
    rw [add_comm]
    exact_mod_cast h2

/-! ### The cells of the games that the rolls make -/

theorem gamesOf_true (n : Nat) : gamesOf (List.replicate n fun _ => True) = {ω | ∃ gs, gs.length = n ∧ GamesAre (faces ω) 0 gs} := by
  ext ω
  simp only [gamesOf, Set.mem_setOf_eq, kindsOf]
  constructor
  · rintro ⟨gs, h1, h2⟩
    exact ⟨gs, by have := h2.length_eq; simpa using this.symm, h1⟩
  · rintro ⟨gs, h1, h2⟩
    refine ⟨gs, h2, List.forall₂_iff_get.2 ⟨by simp [h1], fun i hi hi' => ?_⟩⟩
    simp

theorem fairRolls_true (n : Nat) : fairRolls (gamesOf (List.replicate n fun _ => True)) = 1 := by
  rw [fairRolls_gamesOf, List.map_replicate, kindProb_true, List.prod_replicate, one_pow]

open Classical in
/-- The first `n` games. -/
noncomputable def theGames (n : Nat) (ω : ℕ → Fin 6) : List (Nat × Bool) :=
  if h : ∃ gs, gs.length = n ∧ GamesAre (faces ω) 0 gs then h.choose else []

theorem theGames_spec {n : Nat} {ω : ℕ → Fin 6} (h : ω ∈ gamesOf (List.replicate n fun _ => True)) :
    (theGames n ω).length = n ∧ GamesAre (faces ω) 0 (theGames n ω) := by
  rw [gamesOf_true] at h
  have h' : ∃ gs, gs.length = n ∧ GamesAre (faces ω) 0 gs := h
  rw [theGames, dif_pos h']
  exact h'.choose_spec

/-- Their cells. -/
noncomputable def gameCells (n : Nat) (ω : ℕ → Fin 6) (t : Fin n) : Fin 42 := gameCell ((theGames n ω).getD t (0, false))

theorem gameCells_preimage {n : Nat} (e : Fin n → Fin 42) : gameCells n ⁻¹' {e} =
    gamesOf (List.ofFn fun t g => gameCell g = e t) ∪ {ω | ω ∉ gamesOf (List.replicate n fun _ => True) ∧ e = fun _ => gameCell (0, false)} := by
  have hk : ∀ gs, kindsOf (List.ofFn fun t g => gameCell g = e t) gs ↔ gs.length = n ∧ ∀ t : Fin n, gameCell (gs.getD t (0, false)) = e t := by
    intro gs
    rw [kindsOf, List.forall₂_iff_get]
    constructor
    · rintro ⟨h1, h2⟩
      rw [List.length_ofFn] at h1
      refine ⟨h1.symm, fun t => ?_⟩
      have ht : t.val < gs.length := by have := t.2; omega
      have := h2 t.val (by simp) ht
      rw [List.getD_eq_getElem _ _ ht]
      simpa using this
    · rintro ⟨h1, h2⟩
      refine ⟨by rw [List.length_ofFn, h1], fun i hi hi' => ?_⟩
      have := h2 ⟨i, by simpa using hi⟩
      rw [List.getD_eq_getElem _ _ hi'] at this
      simpa using this
  ext ω
  simp only [Set.mem_preimage, Set.mem_singleton_iff, Set.mem_union, Set.mem_setOf_eq]
  by_cases h : ω ∈ gamesOf (List.replicate n fun _ => True)
  · obtain ⟨h1, h2⟩ := theGames_spec h
    simp only [h, not_true, false_and, or_false]
    constructor
    · intro he
      refine ⟨theGames n ω, h2, (hk _).2 ⟨h1, fun t => ?_⟩⟩
      rw [← he]
      rfl
    · rintro ⟨gs, h3, h4⟩
      obtain ⟨h5, h6⟩ := (hk gs).1 h4
      have : gs = theGames n ω := gamesAre_unique gs (theGames n ω) ω (by omega) h3 h2
      subst this
      funext t
      exact h6 t
  · simp only [h, not_false_eq_true, true_and]
    have hn : ω ∉ gamesOf (List.ofFn fun t g => gameCell g = e t) := by
      rintro ⟨gs, h3, h4⟩
      refine h ?_
      rw [gamesOf_true]
      exact ⟨gs, ((hk gs).1 h4).1, h3⟩
    have hz : gameCells n ω = fun _ => gameCell (0, false) := by
      funext t
      rw [gameCells, theGames, dif_neg (fun hh => h (by rw [gamesOf_true]; exact hh))]
      simp
    rw [hz]
    simp only [hn, false_or]
    exact eq_comm

theorem measurable_gameCells (n : Nat) : Measurable (gameCells n) := by
  refine measurable_to_countable' fun e => ?_
  rw [gameCells_preimage]
  refine (measurableSet_gamesOf _).union ?_
  by_cases he : e = fun _ => gameCell (0, false)
  · simp only [he, and_true]
    exact (measurableSet_gamesOf _).compl
  · simp only [he, and_false, Set.setOf_false]
    exact MeasurableSet.empty

theorem fairRolls_cells {n : Nat} (e : Fin n → Fin 42) : fairRolls (gameCells n ⁻¹' {e}) = ∏ t, ENNReal.ofReal (cellProb (e t)) := by
  have h0 : fairRolls {ω | ω ∉ gamesOf (List.replicate n fun _ => True) ∧ e = fun _ => gameCell (0, false)} = 0 := by
    refine measure_mono_null (fun ω h => h.1) ?_
    exact (prob_compl_eq_zero_iff (measurableSet_gamesOf _)).2 (fairRolls_true n)
  have hu : fairRolls (gameCells n ⁻¹' {e}) = fairRolls (gamesOf (List.ofFn fun t g => gameCell g = e t)) := by
    rw [gameCells_preimage]
    refine le_antisymm ((measure_union_le _ _).trans ?_) (measure_mono Set.subset_union_left)
    rw [h0, add_zero]
  rw [hu, fairRolls_gamesOf, List.map_ofFn, List.prod_ofFn]
  refine Finset.prod_congr rfl fun t _ => ?_
  exact kindProb_cell (e t)

/-! ### The run of the program -/

/-- The cell of game `t`. -/
def cellAt {n : Nat} (t : Nat) (e : Fin n → Fin 42) : Nat := if h : t < n then (e ⟨t, h⟩).val else 0

/-- The number of wins. -/
def winsOf {n : Nat} (e : Fin n → Fin 42) : Nat := (List.range n).countP fun t => decide (21 ≤ cellAt t e)

/-- The number of games in a class. -/
def classOf {n : Nat} (e : Fin n → Fin 42) (c : Nat) : Nat := trialCount (fun t (e : Fin n → Fin 42) => cellAt t e % 21) n e c

theorem countP_getD {α : Type*} (d : α) (p : α → Bool) (l : List α) : l.countP p = (List.range l.length).countP fun t => p (l.getD t d) := by
  have h : l = (List.range l.length).map fun t => l.getD t d := by
    refine List.ext_getElem (by simp) fun i h1 h2 => ?_
    rw [List.getElem_map, List.getElem_range, List.getD_eq_getElem _ _ h1]
  conv_lhs => rw [h, List.countP_map]
  rfl

theorem gamesAre_pos (d : Nat → Nat) : ∀ (gs : List (Nat × Bool)) (pos : Nat), GamesAre d pos gs → ∀ g ∈ gs, 1 ≤ g.1
  | [], _, _, g, hg => by simp at hg
  | (n, w) :: gs, pos, ⟨h1, h2⟩, g, hg => by
    rcases List.mem_cons.1 hg with rfl | hm
    · rcases Nat.eq_zero_or_pos n with h0 | h0
      · rw [h0] at h1; simp [throwsFrom, isGame] at h1
      · exact h0
    · exact gamesAre_pos d gs _ h2 g hm

/-- The program finishes when the games do, with the counts of their cells. -/
theorem craps_run {n : Nat} {ω : ℕ → Fin 6} (h : ω ∈ gamesOf (List.replicate n fun _ => True)) :
    ∃ fuel, craps (faces ω) fuel n = .ok (winsOf (gameCells n ω), (List.range 21).map (classOf (gameCells n ω))) := by
  obtain ⟨h1, h2⟩ := theGames_spec h
  set gs := theGames n ω with hgs
  refine ⟨(gs.map Prod.fst).sum, ?_⟩
  obtain ⟨x, e1, e2, -, e3, e4⟩ := C35_tally (faces ω) (gs.map Prod.fst).sum gs h2
    (fun g hg => List.single_le_sum (fun _ _ => Nat.zero_le _) _ (List.mem_map_of_mem hg))
  have hpos := gamesAre_pos (faces ω) gs 0 h2
  have hcell : ∀ t, t < n → cellAt t (gameCells n ω) = min ((gs.getD t (0, false)).1 - 1) 20 + (if (gs.getD t (0, false)).2 then 21 else 0) ∧
      1 ≤ (gs.getD t (0, false)).1 := by
    intro t ht
    have htl : t < gs.length := by omega
    refine ⟨by rw [cellAt, dif_pos ht]; rfl, ?_⟩
    rw [List.getD_eq_getElem _ _ htl]
    exact hpos _ (List.getElem_mem htl)
  rw [h1] at e1
  rw [e1]
  congr 2
  · rw [countP_getD (0, false), h1, winsOf]
    refine List.countP_congr fun t ht => ?_
    obtain ⟨hc, -⟩ := hcell t (List.mem_range.1 ht)
    rw [hc]
    cases (gs.getD t (0, false)).2
    · simp
    · simp
  · refine List.ext_getElem (by simp [e2]) fun c hc hc' => ?_
    have hc21 : c < 21 := by omega
    rw [List.getElem_map, List.getElem_range, ← List.getD_eq_getElem _ 0 hc, classOf, trialCount]
    have hcl : ∀ t, t < n → cellAt t (gameCells n ω) % 21 = min ((gs.getD t (0, false)).1 - 1) 20 := by
      intro t ht
      rw [(hcell t ht).1]
      split <;> omega
    by_cases h20 : c < 20
    · rw [e3 c h20, countP_getD (0, false), h1]
      refine List.countP_congr fun t ht => ?_
      have ht := List.mem_range.1 ht
      have := (hcell t ht).2
      simp only [hcl t ht, decide_eq_true_eq]
      omega
    · have : c = 20 := by omega
      subst this
      rw [e4, countP_getD (0, false), h1]
      refine List.countP_congr fun t ht => ?_
      have ht := List.mem_range.1 ht
      have := (hcell t ht).2
      simp only [hcl t ht, decide_eq_true_eq]
      omega

theorem ae_games (n : Nat) : ∀ᵐ ω ∂fairRolls, ω ∈ gamesOf (List.replicate n fun _ => True) := by
  rw [ae_iff]
  exact (prob_compl_eq_zero_iff (measurableSet_gamesOf _)).2 (fairRolls_true n)

theorem crapsTerms_spec : ∀ (todo i : Nat) (y : List ℚ), 1 ≤ i → i + todo = 20 → y.length = 21 → (∀ k < i, y.getD k 0 = crapsY k) →
    ∃ y', crapsTerms todo i (crapsSum i) y = .ok (crapsSum 20, y') ∧ y'.length = 21 ∧ ∀ k < 20, y'.getD k 0 = crapsY k
  | 0, i, y, _, h2, h3, h4 => by
    have : i = 20 := by omega
    subst this
    exact ⟨y, rfl, h3, h4⟩
  | todo + 1, i, y, h1, h2, h3, h4 => by
    have ht : crapsTerm i = crapsYLow i := by rw [crapsTerm, crapsYLow, if_neg (by omega)]
    have hr : rd (y.set i (crapsTerm i)) i = .ok (crapsTerm i) := by
      rw [rd_ok (by simp; omega)]
      simp
    rw [crapsTerms, wr, if_pos (by omega), Res.bind_ok, hr, Res.bind_ok, ht]
    refine crapsTerms_spec todo (i + 1) _ (by omega) (by omega) (by simpa using h3) fun k hk => ?_
    rw [getD_set _ _ _ _ (by omega)]
    by_cases hki : k = i
    · subst hki
      rw [if_pos rfl, crapsY, if_pos (by omega)]
    · rw [if_neg hki]
      exact h4 k (by omega)

theorem crapsScale_spec (n : Nat) (f : Nat → ℚ) : ∀ (todo i : Nat) (y : List ℚ), i + todo = 21 → y.length = 21 → (∀ k < i, y.getD k 0 = n * f k) →
    (∀ k, i ≤ k → k < 21 → y.getD k 0 = f k) → crapsScale n todo i y = .ok ((List.range 21).map fun c => (n : ℚ) * f c)
  | 0, i, y, h1, h2, h3, _ => by
    rw [crapsScale]
    congr 1
    refine List.ext_getElem (by simp [h2]) fun k hk hk' => ?_
    rw [← List.getD_eq_getElem _ 0 hk, h3 k (by omega)]
    simp
  | todo + 1, i, y, h1, h2, h3, h4 => by
    have hi : i < y.length := by omega
    rw [crapsScale, rd_ok hi, Res.bind_ok, wr, if_pos hi, Res.bind_ok]
    refine crapsScale_spec n f todo (i + 1) _ (by omega) (by simpa using h2) (fun k hk => ?_) fun k hk hk' => ?_
    · rw [getD_set _ _ _ _ hi]
      by_cases hki : k = i
      · subst hki
        rw [if_pos rfl, ← List.getD_eq_getElem _ 0 hi, h4 k le_rfl (by omega), mul_comm]
      · rw [if_neg hki]
        exact h3 k (by omega)
    · rw [getD_set _ _ _ _ hi, if_neg (by omega)]
      exact h4 k (by omega) hk'

/-- The expectations of the code. -/
theorem crapsExpected_eq (n : Nat) : crapsExpected n = .ok ((List.range 21).map fun c => (n : ℚ) * crapsY c) := by
  have hl : (vtestCreate 21).y.length = 21 := by simp [vtestCreate]
  have hs1 : crapsSum 1 = 1 / 3 := by norm_num [crapsSum, crapsYLow]
  rw [crapsExpected, wr, if_pos (by omega), Res.bind_ok]
  obtain ⟨y, e1, e2, e3⟩ := crapsTerms_spec 19 1 ((vtestCreate 21).y.set 0 (1 / 3)) le_rfl rfl (by simpa using hl) fun k hk => by
    rw [getD_set _ _ _ _ (by omega), if_pos (by omega), crapsY, if_pos (by omega), show k = 0 by omega, crapsYLow, if_pos rfl]
  rw [hs1] at e1
  rw [e1, Res.bind_ok]
  simp only
  rw [wr, if_pos (by omega), Res.bind_ok]
  refine crapsScale_spec n crapsY 21 0 _ rfl (by simpa using e2) (fun k hk => absurd hk (Nat.not_lt_zero k)) fun k _ hk => ?_
  rw [getD_set _ _ _ _ (by omega)]
  by_cases hk20 : k = 20
  · rw [if_pos hk20, hk20, crapsY, if_neg (by omega)]
  · rw [if_neg hk20, e3 k (by omega)]

/-! ### Fuel -/

theorem crapsPoint_mono (d : Nat → Nat) (point : Nat) : ∀ (fuel fuel' tries pos : Nat) (r), fuel ≤ fuel' →
    crapsPoint d point fuel tries pos = .ok r → crapsPoint d point fuel' tries pos = .ok r
  | 0, _, _, _, _, _, h => by simp [crapsPoint] at h
  | fuel + 1, 0, _, _, _, hle, _ => by omega
  | fuel + 1, fuel' + 1, tries, pos, r, hle, h => by
    rw [crapsPoint] at h ⊢
    split at h
    · rename_i h7
      rw [if_pos h7]; exact h
    · rename_i h7
      rw [if_neg h7]
      split at h
      · rename_i hp
        rw [if_pos hp]; exact h
      · rename_i hp
        rw [if_neg hp]
        exact crapsPoint_mono d point fuel fuel' _ _ r (by omega) h

theorem crapsLoop_mono (d : Nat → Nat) (fuel fuel' : Nat) (hle : fuel ≤ fuel') : ∀ (todo pos wins : Nat) (x : List Nat) (r),
    crapsLoop d fuel todo pos wins x = .ok r → crapsLoop d fuel' todo pos wins x = .ok r
  | 0, _, _, _, _, h => h
  | todo + 1, pos, wins, x, r, h => by
    rw [crapsLoop] at h ⊢
    obtain ⟨g, h1, h2⟩ := Res.bind_eq_ok.1 h
    have hg : crapsGame d fuel' pos = .ok g := by
      rw [crapsGame] at h1 ⊢
      split at h1
      · rename_i h7
        rw [if_pos h7]; exact h1
      · rename_i h7
        rw [if_neg h7]
        split at h1
        · rename_i hp
          rw [if_pos hp]; exact h1
        · rename_i hp
          rw [if_neg hp]
          exact crapsPoint_mono d _ fuel fuel' _ _ g hle h1
    rw [hg, Res.bind_ok]
    obtain ⟨tries, won, pos'⟩ := g
    simp only at h2 ⊢
    obtain ⟨x', h3, h4⟩ := Res.bind_eq_ok.1 h2
    rw [h3, Res.bind_ok]
    exact crapsLoop_mono d fuel fuel' hle todo _ _ _ r h4

/-- **C100.** The result does not depend on the bound on the number of throws of a game, if the bound is large enough for a result. -/
theorem C100_unique (cdf : ℝ → ℝ → ℝ) (d : Nat → Nat) (fuel fuel' n : Nat) {r r' : ℝ × Vtest} (h : crapsTest cdf d fuel n = .ok r)
    (h' : crapsTest cdf d fuel' n = .ok r') : r = r' := by
  have key : ∀ {f f' : Nat} {r : ℝ × Vtest}, f ≤ f' → crapsTest cdf d f n = .ok r → crapsTest cdf d f' n = .ok r := by
    intro f f' r hle h
    rw [crapsTest, crapsExpected_eq, Res.bind_ok] at h ⊢
    obtain ⟨g, h1, h2⟩ := Res.bind_eq_ok.1 h
    have h3 : craps d f' n = .ok g := crapsLoop_mono d f f' hle _ _ _ _ _ h1
    rw [h3, Res.bind_ok]
    exact h2
  have h1 := key (le_max_left fuel fuel') h
  have h2 := key (le_max_right fuel fuel') h'
  rw [h1] at h2
  injection h2

/-! ### The statistics -/

theorem decided_mean {B : Type*} [Fintype B] (Y : B → Fin 42) (hY : ∀ e, (mean fun b => if Y b = e then (1 : ℝ) else 0) = cellProb e)
    (S : Fin 42 → Prop) [DecidablePred S] : (mean fun b => if S (Y b) then (1 : ℝ) else 0) = ∑ e, if S e then (cellProb e : ℝ) else 0 := by
  have : ∀ b, (if S (Y b) then (1 : ℝ) else 0) = ∑ e, if S e then (if Y b = e then (1 : ℝ) else 0) else 0 := by
    intro b
    rw [Finset.sum_eq_single (Y b)]
    · simp
    · intro e _ hne
      rw [if_neg (fun h : Y b = e => hne h.symm)]
      simp
    · intro h; exact absurd (Finset.mem_univ _) h
  rw [mean_congr this, mean_sum]
  refine Finset.sum_congr rfl fun e _ => ?_
  by_cases hS : S e
  · simp only [hS, if_true]; exact hY e
  · simp only [hS, if_false]
    rw [mean, Finset.sum_const_zero, zero_div]

theorem sum_win : (∑ e : Fin 42, if 21 ≤ e.val then (cellProb e : ℝ) else 0) = 244 / 495 := by
  have h := sum_cells (M := ℚ) fun w c => if w then classProb w c else 0
  simp only [Bool.false_eq_true, if_false, if_true, Finset.sum_const_zero, zero_add] at h
  rw [sum_classProb, if_pos rfl] at h
  have e : ∀ e : Fin 42, (if 21 ≤ e.val then (cellProb e : ℝ) else 0) = ((if decide (21 ≤ e.val) = true then classProb (decide (21 ≤ e.val)) (e.val % 21) else 0 : ℚ) : ℝ) := by
    intro e
    by_cases h : 21 ≤ e.val <;> simp [h, cellProb]
  rw [Finset.sum_congr rfl fun x _ => e x, ← Rat.cast_sum, h]
  norm_num

theorem sum_class (c : Nat) (hc : c < 21) : (∑ e : Fin 42, if e.val % 21 = c then (cellProb e : ℝ) else 0) = crapsY c := by
  have h := sum_cells (M := ℚ) fun w c' => if c' = c then classProb w c' else 0
  simp only [Finset.sum_ite_eq', if_pos (Finset.mem_range.2 hc)] at h
  rw [classProb_both c hc] at h
  have e : ∀ e : Fin 42, (if e.val % 21 = c then (cellProb e : ℝ) else 0) = ((if e.val % 21 = c then classProb (decide (21 ≤ e.val)) (e.val % 21) else 0 : ℚ) : ℝ) := by
    intro e
    by_cases h : e.val % 21 = c <;> simp [h, cellProb]
  rw [Finset.sum_congr rfl fun x _ => e x, ← Rat.cast_sum, h]

theorem sum_crapsY : ∑ c ∈ Finset.range 21, crapsY c = 1 := by
  have h := Finset.sum_congr rfl fun c (hc : c ∈ Finset.range 21) => classProb_both c (Finset.mem_range.1 hc)
  rw [← h, Finset.sum_add_distrib, sum_classProb, sum_classProb]
  norm_num

theorem gamesOf_list (gs : List (Nat × Bool)) : gamesOf (gs.map fun g g' => g' = g) = {ω | GamesAre (faces ω) 0 gs} := by
  have hk : ∀ gs gs' : List (Nat × Bool), kindsOf (gs.map fun g g' => g' = g) gs' ↔ gs' = gs := by
    intro gs
    induction gs with
    | nil => intro gs'; cases gs' <;> simp [kindsOf]
    | cons g gs ih =>
      intro gs'
      cases gs' with
      | nil => simp [kindsOf]
      | cons g' gs' =>
        rw [kindsOf, List.map_cons, List.forall₂_cons, List.cons.injEq]
        exact and_congr Iff.rfl (ih gs')
  ext ω
  simp only [gamesOf, Set.mem_setOf_eq, hk]
  exact ⟨fun ⟨_, h1, h2⟩ => h2 ▸ h1, fun h => ⟨gs, h, rfl⟩⟩

/-- **C100.** On rolls of a fair die the probability that the first games are given ones is the product of the probabilities that the
rules give them, and with probability 1 there is no game that does not end. -/
theorem C100_independent (gs : List (Nat × Bool)) (n : Nat) :
    fairRolls {ω | GamesAre (faces ω) 0 gs} = (gs.map fun g => ENNReal.ofReal (gameProb g.2 g.1)).prod ∧
    ∀ᵐ ω ∂fairRolls, ∃ gs, gs.length = n ∧ GamesAre (faces ω) 0 gs := by
  refine ⟨?_, ?_⟩
  · rw [← gamesOf_list, fairRolls_gamesOf, List.map_map]
    congr 1
    refine List.map_congr_left fun g _ => ?_
    have h : (∑' g' : Nat × Bool, if g' = g then ENNReal.ofReal (gameProb g'.2 g'.1) else 0) = ENNReal.ofReal (gameProb g.2 g.1) := by
      refine (tsum_eq_single g fun g' h => if_neg h).trans ?_
      rw [if_pos rfl]
    rw [← h, Function.comp, kindProb]
    refine tsum_congr fun g' => ?_
    by_cases e : g' = g <;> simp [e]
  · filter_upwards [ae_games n] with ω hω
    rw [gamesOf_true] at hω
    exact hω

/-- **C100.** The number of wins has the mean and the variance that the test assumes. -/
theorem C100_wins (n : Nat) : ∃ W : (ℕ → Fin 6) → Nat,
    (∀ᵐ ω ∂fairRolls, ∃ fuel x, craps (faces ω) fuel n = .ok (W ω, x)) ∧
    ∫ ω, (W ω : ℝ) ∂fairRolls = n * crapsP ∧
    ∫ ω, ((W ω : ℝ) - n * crapsP) ^ 2 ∂fairRolls = n * crapsP * (1 - crapsP) := by
  refine ⟨fun ω => winsOf (gameCells n ω), ?_, ?_⟩
  · filter_upwards [ae_games n] with ω hω
    obtain ⟨fuel, h⟩ := craps_run hω
    exact ⟨fuel, _, h⟩
  obtain ⟨D, hD, Y, hY⟩ := exists_uniform cellProb cellProb_nonneg sum_cellProb
  haveI : Nonempty (Fin D) := ⟨⟨0, hD⟩⟩
  have hp : (crapsP : ℝ) = 244 / 495 := by rw [crapsP]; norm_num
  have htr := iid_trials n 2 (fun b : Fin D => if 21 ≤ (Y b).val then 1 else 0) (fun b => by split <;> omega)
  have hone : (mean fun b : Fin D => if (if 21 ≤ (Y b).val then 1 else 0) = 1 then (1 : ℝ) else 0) = 244 / 495 := by
    have := decided_mean Y hY fun e => 21 ≤ e.val
    rw [sum_win] at this
    rw [← this]
    refine mean_congr fun b => ?_
    by_cases h : 21 ≤ (Y b).val <;> simp [h]
  have hcount : ∀ u : Fin n → Fin D, (winsOf fun t => Y (u t)) =
      trialCount (fun t (ω : Fin n → Fin D) => if h : t < n then (fun b : Fin D => if 21 ≤ (Y b).val then 1 else 0) (ω ⟨t, h⟩) else 0) n u 1 := by
    intro u
    rw [winsOf, trialCount]
    refine List.countP_congr fun t ht => ?_
    have ht := List.mem_range.1 ht
    simp only [cellAt, dif_pos ht, decide_eq_true_eq]
    by_cases h : 21 ≤ (Y (u ⟨t, ht⟩)).val <;> simp [h]
  rw [integral_trials fairRolls cellProb cellProb_nonneg (gameCells n) (measurable_gameCells n) fairRolls_cells Y hY fun e => (winsOf e : ℝ),
    integral_trials fairRolls cellProb cellProb_nonneg (gameCells n) (measurable_gameCells n) fairRolls_cells Y hY fun e => ((winsOf e : ℝ) - n * crapsP) ^ 2]
  constructor
  · simp only [hcount, trialCount_eq]
    rw [mean_sum, Finset.sum_congr rfl fun t ht => (htr.one t (Finset.mem_range.1 ht) 1 (by norm_num)).trans hone]
    rw [Finset.sum_const, Finset.card_range, nsmul_eq_mul, hp]
  · simp only [hcount]
    rcases Nat.eq_zero_or_pos n with h0 | h0
    · subst h0
      simp only [trialCount, List.range_zero, List.countP_nil, Nat.cast_zero, zero_mul, sub_zero]
      rw [mean_const]
      norm_num
    · have hf : (Finset.range 2).filter (fun d => d = 1) = {1} := by decide
      have := mean_pearson htr (fun d => d = 1) (244 / 495) h0
      simp only [hf, Finset.sum_singleton] at this
      rw [hone, cellMean_self n (by norm_num), mean_div] at this
      rw [hp]
      have hn : (n : ℝ) ≠ 0 := by exact_mod_cast h0.ne'
      rw [div_eq_iff (by positivity)] at this
      rw [this]
      ring

/-- **C100.** The whole test on rolls of a fair die: it finishes with probability 1; its first p-value is that of the number of wins, which
has the mean and the variance assumed; the mean of the statistic of the second is the number of classes (with the rare classes
counted as one) less one, plus the probability of the rare classes if they are left out because they expect less than five together. -/
theorem C100_mean (cdf : ℝ → ℝ → ℝ) (n : Nat) (hn : 0 < n) : ∃ (W : (ℕ → Fin 6) → Nat) (V : (ℕ → Fin 6) → Vtest),
    (∀ᵐ ω ∂fairRolls, ∃ fuel, crapsTest cdf (faces ω) fuel n =
      .ok (cdf (n * (244 / 495) - W ω) (Real.sqrt (n * (244 / 495) * (251 / 495))), V ω)) ∧
    ∫ ω, (W ω : ℝ) ∂fairRolls = n * (244 / 495) ∧
    ∫ ω, (((W ω : ℝ) - n * (244 / 495)) ^ 2 : ℝ) ∂fairRolls = (n * (244 / 495) * (251 / 495) : ℝ) ∧
    (5 ≤ n * ∑ c ∈ (Finset.range 21).filter (fun c => ¬ 5 ≤ n * crapsY c), crapsY c →
      ∫ ω, ((V ω).chisq : ℝ) ∂fairRolls = ((Finset.range 21).filter (fun c => 5 ≤ n * crapsY c)).card) ∧
    (¬ 5 ≤ n * ∑ c ∈ (Finset.range 21).filter (fun c => ¬ 5 ≤ n * crapsY c), crapsY c →
      ∫ ω, ((V ω).chisq : ℝ) ∂fairRolls = ((Finset.range 21).filter (fun c => 5 ≤ n * crapsY c)).card - 1 +
        ∑ c ∈ (Finset.range 21).filter (fun c => ¬ 5 ≤ n * crapsY c), (crapsY c : ℝ)) ∧
    ((∀ c < 21, 5 ≤ n * crapsY c) → ∀ ω, (V ω).ndof = 20) := by
  have hp : (crapsP : ℝ) = 244 / 495 := by rw [crapsP]; norm_num
  obtain ⟨D, hD, Y, hY⟩ := exists_uniform cellProb cellProb_nonneg sum_cellProb
  haveI : Nonempty (Fin D) := ⟨⟨0, hD⟩⟩
  have htr0 := iid_trials n 21 (fun b : Fin D => (Y b).val % 21) (fun b => Nat.mod_lt _ (by norm_num))
  have htr : PairTrials n 21 (fun t (ω : Fin n → Fin D) => if h : t < n then (Y (ω ⟨t, h⟩)).val % 21 else 0) fun c => (crapsY c : ℝ) := by
    have hone : ∀ c < 21, (mean fun b : Fin D => if (Y b).val % 21 = c then (1 : ℝ) else 0) = crapsY c := by
      intro c hc
      rw [decided_mean Y hY fun e => e.val % 21 = c, sum_class c hc]
    refine ⟨htr0.range, fun t ht c hc => (htr0.one t ht c hc).trans (hone c hc), fun s hs t ht hst c hc d hd => ?_⟩
    rw [← hone c hc, ← hone d hd]
    exact htr0.two s hs t ht hst c hc d hd
  -- the statistic as a function of the cells
  have hev : ∀ e : Fin n → Fin 42, ∃ v, vtestEval { vtestCreate 21 with
      cutoff := 5
      x := ((List.range 21).map (classOf e)).map (Nat.cast : Nat → ℚ)
      y := (List.range 21).map fun c => (n : ℚ) * crapsY c } = .ok v ∧ ((∀ c < 21, 5 ≤ n * crapsY c) → v.ndof = 20) := by
    intro e
    obtain ⟨w, h1, -, -, h2, -⟩ := C16_vtest_eval { vtestCreate 21 with
      cutoff := 5
      x := ((List.range 21).map (classOf e)).map (Nat.cast : Nat → ℚ)
      y := (List.range 21).map fun c => (n : ℚ) * crapsY c } (by simp [vtestCreate]) (by simp [vtestCreate]) (by norm_num)
    refine ⟨w, h1, fun hb => ?_⟩
    rw [h2 rfl, usedCells_large]
    · simp [vtestCreate]
    · intro c hc
      have := (List.of_mem_zip hc).2
      obtain ⟨k, hk, e⟩ := List.mem_map.1 this
      rw [← e]
      exact hb k (List.mem_range.1 hk)
  choose v hv hvd using hev
  obtain ⟨w, hw1, hw2, hw3⟩ := C87_right_law htr hn sum_crapsY
  have hwv : ∀ u : Fin n → Fin D, w u = v fun t => Y (u t) := by
    intro u
    have h1 := hw1 u
    have h2 := hv fun t => Y (u t)
    have e : ((List.range 21).map (classOf fun t => Y (u t))).map (Nat.cast : Nat → ℚ) = (List.range 21).map (fun c =>
        (trialCount (fun t (ω : Fin n → Fin D) => if h : t < n then (Y (ω ⟨t, h⟩)).val % 21 else 0) n u c : ℚ)) := by
      rw [List.map_map]
      refine List.map_congr_left fun c _ => ?_
      simp only [Function.comp, classOf, trialCount]
      congr 1
      refine List.countP_congr fun t ht => ?_
      simp only [cellAt, dif_pos (List.mem_range.1 ht)]
    rw [e] at h2
    have h3 := h1.symm.trans h2
    injection h3
  have hint : ∫ ω, ((v (gameCells n ω)).chisq : ℝ) ∂fairRolls = mean fun u => ((w u).chisq : ℝ) := by
    rw [integral_trials fairRolls cellProb cellProb_nonneg (gameCells n) (measurable_gameCells n) fairRolls_cells Y hY fun e => ((v e).chisq : ℝ)]
    refine mean_congr fun u => ?_
    rw [hwv]
  obtain ⟨W, hW1, hW2, hW3⟩ := C100_wins n
  rw [hp] at hW2 hW3
  refine ⟨W, fun ω => v (gameCells n ω), ?_, hW2, ?_, fun h => ?_, fun h => ?_, fun h ω => hvd _ h⟩
  · filter_upwards [ae_games n, hW1] with ω hω hWω
    obtain ⟨fuel, h1⟩ := craps_run hω
    obtain ⟨fuel', x, h2⟩ := hWω
    have e : winsOf (gameCells n ω) = W ω := by
      have m1 : craps (faces ω) (max fuel fuel') n = _ := crapsLoop_mono _ _ _ (le_max_left _ _) _ _ _ _ _ h1
      have m2 : craps (faces ω) (max fuel fuel') n = _ := crapsLoop_mono _ _ _ (le_max_right _ _) _ _ _ _ _ h2
      rw [m1] at m2
      injection m2 with m2
      exact (Prod.mk.inj m2).1
    refine ⟨fuel, ?_⟩
    rw [crapsTest, crapsExpected_eq, Res.bind_ok, h1, Res.bind_ok]
    simp only
    rw [hv, Res.bind_ok, e, xtestEval, hp, show (1 : ℝ) - 244 / 495 = 251 / 495 from by norm_num]
  · rw [hW3]; norm_num
  · rw [hint]; exact hw2 h
  · rw [hint]; exact hw3 h

theorem crapsY_bound : ∀ c < 21, (1 / 1885 : ℚ) ≤ crapsY c := by
  intro c hc
  have h20 : crapsY 20 = 1 - crapsSum 20 := by rw [crapsY, if_neg (by omega)]
  interval_cases c <;> first | (rw [crapsY, if_pos (by omega), crapsYLow]; norm_num) | (rw [h20]; norm_num [crapsSum, crapsYLow])

/-- **C100.** With 9425 games or more (the default is 200000) no class is rare: the mean of the statistic is 20, the number of degrees of freedom. -/
theorem C100_default (cdf : ℝ → ℝ → ℝ) (n : Nat) (hn : 9425 ≤ n) : ∃ (p : (ℕ → Fin 6) → ℝ) (V : (ℕ → Fin 6) → Vtest),
    (∀ᵐ ω ∂fairRolls, ∃ fuel, crapsTest cdf (faces ω) fuel n = .ok (p ω, V ω) ∧ (V ω).ndof = 20) ∧ ∫ ω, ((V ω).chisq : ℝ) ∂fairRolls = 20 := by
  obtain ⟨W, V, h1, -, -, -, h2, h3⟩ := C100_mean cdf n (by omega)
  have hbig : ∀ c < 21, (5 : ℚ) ≤ n * crapsY c := by
    intro c hc
    have h9 : (9425 : ℚ) ≤ n := by exact_mod_cast hn
    have := crapsY_bound c hc
    nlinarith
  have e1 : (Finset.range 21).filter (fun c => 5 ≤ (n : ℚ) * crapsY c) = Finset.range 21 :=
    Finset.filter_true_of_mem fun c hc => hbig c (Finset.mem_range.1 hc)
  have e2 : (Finset.range 21).filter (fun c => ¬ 5 ≤ (n : ℚ) * crapsY c) = ∅ :=
    Finset.filter_false_of_mem fun c hc => not_not.2 (hbig c (Finset.mem_range.1 hc))
  rw [e1, e2] at h2
  refine ⟨_, V, h1.mono fun ω ⟨fuel, h⟩ => ⟨fuel, h, h3 hbig ω⟩, ?_⟩
  rw [h2 (by simp)]
  norm_num

/-- The first game is won in three throws with probability `(18*27 + 32*26 + 50*25) / (1296 * 36)`. -/
example : fairRolls {ω | GamesAre (faces ω) 0 [(3, true)]} = ENNReal.ofReal (107 / 1944) := by
  rw [(C100_independent [(3, true)] 0).1]
  simp only [List.map_cons, List.map_nil, List.prod_cons, List.prod_nil, mul_one]
  congr 1
  have := gameProb_add_two true 1
  rw [show (3 : Nat) = 1 + 2 from rfl, this]
  norm_num

/-- The default number of games. -/
example (cdf : ℝ → ℝ → ℝ) : ∃ (p : (ℕ → Fin 6) → ℝ) (V : (ℕ → Fin 6) → Vtest),
    (∀ᵐ ω ∂fairRolls, ∃ fuel, crapsTest cdf (faces ω) fuel 200000 = .ok (p ω, V ω) ∧ (V ω).ndof = 20) ∧ ∫ ω, ((V ω).chisq : ℝ) ∂fairRolls = 20 :=
  C100_default cdf 200000 (by norm_num)

end Dh
