import Mathlib.Tactic.Positivity
import Verif.Proof.Rolls
import Verif.Proof.IidTrials
/-
The games of craps that infinitely many rolls of a fair die make are independent.
-/
set_option linter.unusedSimpArgs false
namespace Dh
open MeasureTheory Measure Spec

theorem gameProb_nonneg (w : Bool) (n : Nat) : 0 ≤ gameProb w n := by
  rw [gameProb]; positivity

/-- The probability of a game, and what follows it. -/
theorem fairRolls_game {A : Set (ℕ → Fin 6)} (hA : MeasurableSet A) (w : Bool) (n : Nat) :
    fairRolls {ω | isGame w (throwsFrom (faces ω) 0 n) = true ∧ shiftSeq (2 * n) ω ∈ A} = ENNReal.ofReal (gameProb w n) * fairRolls A := by
  rw [fairRolls_throws hA n (isGame w), gameProb]
  congr 1
  rw [Rat.cast_div, Rat.cast_pow, Rat.cast_natCast, ENNReal.ofReal_div_of_pos (by positivity), ENNReal.ofReal_natCast,
    ENNReal.ofReal_pow (by norm_num), div_eq_mul_inv]
  congr 1
  rw [ENNReal.inv_pow]
  congr 1
  rw [← ENNReal.mul_inv (by norm_num) (by norm_num)]
  norm_num

theorem gamesAre_shift (ω : ℕ → Fin 6) : ∀ (gs : List (Nat × Bool)) (pos k : Nat),
    GamesAre (faces ω) (k + pos) gs ↔ GamesAre (faces (shiftSeq k ω)) pos gs
  | [], _, _ => Iff.rfl
  | (n, w) :: gs, pos, k => by
    rw [GamesAre, GamesAre, Nat.add_assoc, gamesAre_shift ω gs (pos + 2 * n) k,
      throwsFrom_congr (d := faces ω) (d' := faces (shiftSeq k ω)) (pos := k + pos) (pos' := pos)]
    intro i _
    rw [faces_shift, Nat.add_assoc]

namespace Spec

/-- The games are those of the given kinds. -/
def kindsOf (Cs : List (Nat × Bool → Prop)) (gs : List (Nat × Bool)) : Prop := List.Forall₂ (fun C g => C g) Cs gs

/-- The rolls whose first games are of the given kinds. -/
def gamesOf (Cs : List (Nat × Bool → Prop)) : Set (ℕ → Fin 6) := {ω | ∃ gs, GamesAre (faces ω) 0 gs ∧ kindsOf Cs gs}

open Classical in
/-- The probability that a game is of the given kind. -/
noncomputable def kindProb (C : Nat × Bool → Prop) : ENNReal := ∑' g : Nat × Bool, if C g then ENNReal.ofReal (gameProb g.2 g.1) else 0

end Spec

theorem gamesOf_nil : gamesOf [] = Set.univ := by
  ext ω
  simp only [gamesOf, Set.mem_setOf_eq, Set.mem_univ, iff_true]
  exact ⟨[], trivial, List.Forall₂.nil⟩

theorem gamesOf_cons (C : Nat × Bool → Prop) (Cs : List (Nat × Bool → Prop)) : gamesOf (C :: Cs) =
    ⋃ g : Nat × Bool, {ω | C g ∧ isGame g.2 (throwsFrom (faces ω) 0 g.1) = true ∧ shiftSeq (2 * g.1) ω ∈ gamesOf Cs} := by
  ext ω
  simp only [gamesOf, Set.mem_setOf_eq, Set.mem_iUnion]
  constructor
  · rintro ⟨gs, h1, h2⟩
    cases gs with
    | nil => cases h2
    | cons g gs =>
      obtain ⟨n, w⟩ := g
      obtain ⟨hC, hCs⟩ := List.forall₂_cons.1 h2
      obtain ⟨h3, h4⟩ := h1
      refine ⟨(n, w), hC, h3, gs, ?_, hCs⟩
      rw [← gamesAre_shift ω gs 0 (2 * n)]
      rw [Nat.zero_add] at h4
      exact h4
  · rintro ⟨⟨n, w⟩, hC, h3, gs, h4, hCs⟩
    refine ⟨(n, w) :: gs, ⟨h3, ?_⟩, List.forall₂_cons.2 ⟨hC, hCs⟩⟩
    rw [← gamesAre_shift ω gs 0 (2 * n)] at h4
    rw [Nat.zero_add]
    exact h4

theorem measurableSet_gamesOf : ∀ Cs, MeasurableSet (gamesOf Cs)
  | [] => by rw [gamesOf_nil]; exact MeasurableSet.univ
  | C :: Cs => by
    rw [gamesOf_cons]
    refine MeasurableSet.iUnion fun g => ?_
    by_cases hC : C g
    · simp only [hC, true_and]
      exact (measurableSet_throws g.1 (isGame g.2)).inter (measurable_shiftSeq _ (measurableSet_gamesOf Cs))
    · simp only [hC, false_and, Set.setOf_false]
      exact MeasurableSet.empty

/-- The games are independent of each other. -/
theorem fairRolls_gamesOf : ∀ Cs, fairRolls (gamesOf Cs) = (Cs.map kindProb).prod
  | [] => by rw [gamesOf_nil, measure_univ]; rfl
  | C :: Cs => by
    classical
    have hA := measurableSet_gamesOf Cs
    rw [gamesOf_cons, measure_iUnion, List.map_cons, List.prod_cons, ← fairRolls_gamesOf Cs, kindProb, ← ENNReal.tsum_mul_right]
    · refine tsum_congr fun g => ?_
      by_cases hC : C g
      · simp only [hC, true_and, if_true]
        exact fairRolls_game hA g.2 g.1
      · simp [hC]
    · intro g g' hne
      rw [Function.onFun, Set.disjoint_left]
      rintro ω ⟨-, h1, -⟩ ⟨-, h2, -⟩
      obtain ⟨e1, e2⟩ := C35_prefix_free (faces ω) g.2 g'.2 g.1 g'.1 h1 h2
      exact hne (Prod.ext e1 e2)
    · intro g
      by_cases hC : C g
      · simp only [hC, true_and]
        exact (measurableSet_throws g.1 (isGame g.2)).inter (measurable_shiftSeq _ hA)
      · simp only [hC, false_and, Set.setOf_false]
        exact MeasurableSet.empty

/-- The games the rolls make are unique. -/
theorem gamesAre_unique : ∀ (gs gs' : List (Nat × Bool)) (ω : ℕ → Fin 6), gs.length = gs'.length →
    GamesAre (faces ω) 0 gs → GamesAre (faces ω) 0 gs' → gs = gs'
  | [], [], _, _, _, _ => rfl
  | [], _ :: _, _, hl, _, _ => by simp at hl
  | _ :: _, [], _, hl, _, _ => by simp at hl
  | (n, w) :: gs, (n', w') :: gs', ω, hl, ⟨h1, h2⟩, ⟨h1', h2'⟩ => by
    obtain ⟨e1, e2⟩ := C35_prefix_free (faces ω) w w' n n' h1 h1'
    subst e1; subst e2
    rw [Nat.zero_add] at h2 h2'
    rw [gamesAre_unique gs gs' (shiftSeq (2 * n) ω) (by simpa using hl) ((gamesAre_shift ω gs 0 (2 * n)).1 h2)
      ((gamesAre_shift ω gs' 0 (2 * n)).1 h2')]

/-! ### The probabilities of the kinds of games -/

theorem gameProb_zero (w : Bool) : gameProb w 0 = 0 := by cases w <;> simp [gameProb, throwSeqs, isGame]

/-- A kind of games given by the number of throws and the result. -/
theorem kindProb_eq (C : Nat × Bool → Prop) [DecidablePred C] (q : ℝ)
    (h : HasSum (fun n => ((if C (n + 1, true) then gameProb true (n + 1) else 0 : ℚ) : ℝ) +
      ((if C (n + 1, false) then gameProb false (n + 1) else 0 : ℚ) : ℝ)) q) : kindProb C = ENNReal.ofReal q := by
  have h0 : ∀ (w : Bool) (n : Nat), (0 : ℝ) ≤ ((if C (n, w) then gameProb w n else 0 : ℚ) : ℝ) := by
    intro w n
    split
    · exact_mod_cast gameProb_nonneg w n
    · simp
  have e : kindProb C = ∑' n : Nat, ENNReal.ofReal (((if C (n, true) then gameProb true n else 0 : ℚ) : ℝ) +
      ((if C (n, false) then gameProb false n else 0 : ℚ) : ℝ)) := by
    rw [kindProb, ENNReal.tsum_prod']
    refine tsum_congr fun n => ?_
    rw [tsum_bool, ENNReal.ofReal_add (h0 _ _) (h0 _ _), add_comm]
    congr 1
    · by_cases hC : C (n, true) <;> simp [hC]
    · by_cases hC : C (n, false) <;> simp [hC]
  rw [e, ← ENNReal.ofReal_tsum_of_nonneg (fun n => add_nonneg (h0 _ _) (h0 _ _))]
  · congr 1
    have := (hasSum_nat_add_iff' (f := fun n => ((if C (n, true) then gameProb true n else 0 : ℚ) : ℝ) +
      ((if C (n, false) then gameProb false n else 0 : ℚ) : ℝ)) (g := q) 1).1 (by simpa [gameProb_zero] using h)
    exact this.tsum_eq
  · refine (summable_nat_add_iff 1).1 h.summable

/-- A game ends with probability 1. -/
theorem kindProb_true : kindProb (fun _ => True) = 1 := by
  rw [kindProb_eq _ 1 (by simpa using C35_ends), ENNReal.ofReal_one]

end Dh
