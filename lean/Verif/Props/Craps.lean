import Mathlib.Analysis.SpecificLimits.Basic
import Mathlib.Tactic.NormNum
import Mathlib.Tactic.Ring
import Mathlib.Tactic.Linarith
import Mathlib.Tactic.FieldSimp
import Verif.Model.Craps
import Verif.Proof.Tally
/-
C35: the game of craps.
-/
set_option linter.unusedSimpArgs false
namespace Dh

namespace Spec

/-- What the first throw of a game decides: 7 and 11 win, 2, 3 and 12 lose. -/
def firstThrow (s : Nat) : Option Bool :=
  if s = 7 ∨ s = 11 then some true else if s = 2 ∨ s = 3 ∨ s = 12 then some false else none

/-- What a later throw decides: 7 loses, the point wins. -/
def laterThrow (point s : Nat) : Option Bool := if s = 7 then some false else if s = point then some true else none

/-- The later throws of a game with result `w`: all but the last decide nothing. -/
def laterThrows (point : Nat) (w : Bool) : List Nat → Bool
  | [] => false
  | [s] => laterThrow point s == some w
  | s :: t :: l => laterThrow point s == none && laterThrows point w (t :: l)

/-- The throws are those of a complete game of craps with result `w`. -/
def isGame (w : Bool) : List Nat → Bool
  | [] => false
  | [s] => firstThrow s == some w
  | s :: t :: l => firstThrow s == none && laterThrows s w (t :: l)

/-- The sums of the 36 throws of two dice. -/
def throwSums : List Nat := [1, 2, 3, 4, 5, 6].flatMap fun a => [1, 2, 3, 4, 5, 6].map fun b => a + b

/-- The sums of the `36 ^ n` sequences of `n` throws. -/
def throwSeqs : Nat → List (List Nat)
  | 0 => [[]]
  | n + 1 => throwSums.flatMap fun s => (throwSeqs n).map fun l => s :: l

/-- The probability that a game takes `n` throws and has the result `w`. -/
def gameProb (w : Bool) (n : Nat) : ℚ := ((throwSeqs n).countP (isGame w) : ℚ) / 36 ^ n

end Spec
open Spec

/-! ### The code plays craps -/

/-- The sums of the throws from `pos` on. -/
def throwsFrom (d : Nat → Nat) (pos n : Nat) : List Nat := (List.range n).map fun k => d (pos + 2 * k) + d (pos + 2 * k + 1)

theorem throwsFrom_succ (d : Nat → Nat) (pos n : Nat) :
    throwsFrom d pos (n + 1) = (d pos + d (pos + 1)) :: throwsFrom d (pos + 2) n := by
  rw [throwsFrom, List.range_succ_eq_map, List.map_cons, List.map_map, throwsFrom]
  congr 1
  apply List.map_congr_left
  intro k _
  simp only [Function.comp]
  rw [show pos + 2 * (k + 1) = pos + 2 + 2 * k from by omega]

theorem crapsPoint_spec (d : Nat → Nat) (point : Nat) (w : Bool) : ∀ (n fuel tries pos : Nat), n ≤ fuel → tries ≤ 20 →
    laterThrows point w (throwsFrom d pos n) = true →
    crapsPoint d point fuel tries pos = .ok (min (tries + n) 20, w, pos + 2 * n)
  | 0, _, _, _, _, _, h => by simp [throwsFrom, laterThrows] at h
  | n + 1, 0, _, _, hf, _, _ => by omega
  | n + 1, fuel + 1, tries, pos, hf, ht, h => by
    rw [throwsFrom_succ] at h
    have h20 : (if tries < 20 then tries + 1 else tries) = min (tries + 1) 20 := by split <;> omega
    rw [crapsPoint]
    simp only [h20]
    cases n with
    | zero =>
      have h' : laterThrow point (d pos + d (pos + 1)) = some w := by
        simpa [throwsFrom, laterThrows] using h
      rw [laterThrow] at h'
      by_cases h7 : d pos + d (pos + 1) = 7
      · rw [if_pos h7] at h' ⊢
        injection h' with h'; rw [← h']
      · rw [if_neg h7] at h' ⊢
        by_cases hp : d pos + d (pos + 1) = point
        · rw [if_pos hp] at h' ⊢
          injection h' with h'; rw [← h']
        · rw [if_neg hp] at h'; cases h'
    | succ n =>
      have h' : laterThrow point (d pos + d (pos + 1)) = none ∧ laterThrows point w (throwsFrom d (pos + 2) (n + 1)) = true := by
        rw [throwsFrom_succ d (pos + 2) n] at h ⊢
        simpa [laterThrows] using h
      obtain ⟨hn, hl⟩ := h'
      rw [laterThrow] at hn
      by_cases h7 : d pos + d (pos + 1) = 7
      · rw [if_pos h7] at hn; cases hn
      · rw [if_neg h7] at hn ⊢
        by_cases hp : d pos + d (pos + 1) = point
        · rw [if_pos hp] at hn; cases hn
        · rw [if_neg hp, crapsPoint_spec d point w (n + 1) fuel _ _ (by omega) (by omega) hl]
          congr 2
          · omega
          · rw [show pos + 2 + 2 * (n + 1) = pos + 2 * (n + 1 + 1) from by omega]

/-- **C35.** The code plays by the rules: if the next `n` throws make up a game with result `w`, the code finds that
result, uses these throws, and counts the game in class `n - 1`, or 20 if there are more than 21 throws. -/
theorem C35_game (d : Nat → Nat) (w : Bool) (n fuel pos : Nat) (hf : n ≤ fuel)
    (h : isGame w (throwsFrom d pos n) = true) :
    crapsGame d fuel pos = .ok (min (n - 1) 20, w, pos + 2 * n) := by
  cases n with
  | zero => simp [throwsFrom, isGame] at h
  | succ n =>
    rw [throwsFrom_succ] at h
    rw [crapsGame]
    cases n with
    | zero =>
      have h' : firstThrow (d pos + d (pos + 1)) = some w := by simpa [throwsFrom, isGame] using h
      rw [firstThrow] at h'
      by_cases h7 : d pos + d (pos + 1) = 7 ∨ d pos + d (pos + 1) = 11
      · rw [if_pos h7] at h' ⊢
        injection h' with h'; rw [← h']; rfl
      · rw [if_neg h7] at h' ⊢
        by_cases hp : d pos + d (pos + 1) = 2 ∨ d pos + d (pos + 1) = 3 ∨ d pos + d (pos + 1) = 12
        · rw [if_pos hp] at h' ⊢
          injection h' with h'; rw [← h']; rfl
        · rw [if_neg hp] at h'; cases h'
    | succ n =>
      have h' : firstThrow (d pos + d (pos + 1)) = none ∧
          laterThrows (d pos + d (pos + 1)) w (throwsFrom d (pos + 2) (n + 1)) = true := by
        rw [throwsFrom_succ d (pos + 2) n] at h ⊢
        simpa [isGame] using h
      obtain ⟨hn, hl⟩ := h'
      rw [firstThrow] at hn
      by_cases h7 : d pos + d (pos + 1) = 7 ∨ d pos + d (pos + 1) = 11
      · rw [if_pos h7] at hn; cases hn
      · rw [if_neg h7] at hn ⊢
        by_cases hp : d pos + d (pos + 1) = 2 ∨ d pos + d (pos + 1) = 3 ∨ d pos + d (pos + 1) = 12
        · rw [if_pos hp] at hn; cases hn
        · rw [if_neg hp, crapsPoint_spec d _ w (n + 1) fuel 0 _ (by omega) (by omega) hl]
          rw [show pos + 2 + 2 * (n + 1) = pos + 2 * (n + 1 + 1) from by omega, Nat.zero_add, Nat.add_sub_cancel]

/-- The games that the dice `d` give from `pos` on: each is described by its number of throws and its result. -/
def GamesAre (d : Nat → Nat) : (pos : Nat) → List (Nat × Bool) → Prop
  | _, [] => True
  | pos, (n, w) :: gs => isGame w (throwsFrom d pos n) = true ∧ GamesAre d (pos + 2 * n) gs

theorem crapsLoop_spec (d : Nat → Nat) (fuel : Nat) (f0 : List Nat) (hf : f0.length = 21) :
    ∀ (gs : List (Nat × Bool)) (pos wins : Nat) (done : List Nat) (x : List Nat),
    GamesAre d pos gs → (∀ g ∈ gs, g.1 ≤ fuel) → Tallied f0 done x →
    ∃ x', crapsLoop d fuel gs.length pos wins x = .ok (wins + gs.countP (·.2), x') ∧
      Tallied f0 (done ++ gs.map fun g => min (g.1 - 1) 20) x'
  | [], pos, wins, done, x, _, _, t => ⟨x, rfl, by simpa using t⟩
  | (n, w) :: gs, pos, wins, done, x, hg, hl, t => by
    obtain ⟨h1, h2⟩ := hg
    have e := C35_game d w n fuel pos (hl (n, w) (by simp)) h1
    obtain ⟨x1, a1, t1⟩ := t.bump (i := min (n - 1) 20) (by omega)
    obtain ⟨x2, a2, t2⟩ := crapsLoop_spec d fuel f0 hf gs (pos + 2 * n) (if w then wins + 1 else wins) _ x1 h2
      (fun g hg => hl g (by simp [hg])) t1
    refine ⟨x2, ?_, by simpa using t2⟩
    rw [List.length_cons, crapsLoop, e]
    simp only [Res.bind_ok, a1]
    rw [a2]
    congr 2
    cases w
    · simp
    · simp; omega

/-- **C35.** Each game contributes to exactly one of the 21 classes, that of its number of throws, and the wins are
counted. -/
theorem C35_tally (d : Nat → Nat) (fuel : Nat) (gs : List (Nat × Bool)) (h : GamesAre d 0 gs) (hl : ∀ g ∈ gs, g.1 ≤ fuel) :
    ∃ x, craps d fuel gs.length = .ok (gs.countP (·.2), x) ∧ x.length = 21 ∧ x.sum = gs.length ∧
      (∀ c < 20, x.getD c 0 = gs.countP fun g => decide (g.1 = c + 1)) ∧
      x.getD 20 0 = gs.countP fun g => decide (21 ≤ g.1) := by
  obtain ⟨x, e, t⟩ := crapsLoop_spec d fuel (List.replicate 21 0) rfl gs 0 0 [] _ h hl (Tallied.nil _)
  rw [List.nil_append] at t
  have pos : ∀ (gs : List (Nat × Bool)) (pos : Nat), GamesAre d pos gs → ∀ g ∈ gs, 1 ≤ g.1 := by
    intro gs
    induction gs with
    | nil => intro _ _ g hg; simp at hg
    | cons g gs ih =>
      intro pos hg g' hg'
      obtain ⟨h1, h2⟩ := hg
      rcases List.mem_cons.1 hg' with rfl | hm
      · rcases Nat.eq_zero_or_pos g'.1 with h0 | h0
        · rw [h0] at h1; simp [throwsFrom, isGame] at h1
        · exact h0
      · exact ih _ h2 g' hm
  have hp := pos gs 0 h
  have e0 : ∀ c, (List.replicate 21 0).getD c 0 = 0 := fun c => by
    simp only [List.getD, List.getElem?_replicate]; split <;> rfl
  refine ⟨x, by rw [craps, e, Nat.zero_add], by rw [t.len]; rfl, ?_, fun c hc => ?_, ?_⟩
  · rw [t.sum, List.length_map, List.sum_replicate_nat]; simp
  · rw [t.get, e0, Nat.zero_add, List.count, List.countP_map]
    apply List.countP_congr
    intro g hg
    have := hp g hg
    simp only [Function.comp, beq_iff_eq, decide_eq_true_eq]
    omega
  · rw [t.get, e0, Nat.zero_add, List.count, List.countP_map]
    apply List.countP_congr
    intro g hg
    have := hp g hg
    simp only [Function.comp, beq_iff_eq, decide_eq_true_eq]
    omega

/-! ### The probabilities -/

theorem countP_throwSeqs (f : List Nat → Bool) (n : Nat) :
    (throwSeqs (n + 1)).countP f = (throwSums.map fun s => (throwSeqs n).countP fun l => f (s :: l)).sum := by
  rw [throwSeqs, List.countP_flatMap]
  congr 1
  apply List.map_congr_left
  intro s _
  simp only [Function.comp, List.countP_map]
  rfl

theorem throwSeqs_length (n : Nat) : (throwSeqs n).length = 36 ^ n := by
  induction n with
  | zero => rfl
  | succ n ih =>
    have := countP_throwSeqs (fun _ => true) n
    simp only [List.countP_true] at this
    rw [this, ih, pow_succ, List.map_const', List.sum_replicate_nat, show throwSums.length = 36 from rfl, Nat.mul_comm]

theorem throwSeqs_ne (n : Nat) : ∀ l ∈ throwSeqs n, l.length = n := by
  induction n with
  | zero => simp [throwSeqs]
  | succ n ih =>
    intro l hl
    rw [throwSeqs, List.mem_flatMap] at hl
    obtain ⟨s, _, hl⟩ := hl
    obtain ⟨m, hm, rfl⟩ := List.mem_map.1 hl
    rw [List.length_cons, ih m hm]

theorem countP_const (b : Bool) (n : Nat) (f : List Nat → Bool) (h : ∀ l ∈ throwSeqs n, f l = b) :
    (throwSeqs n).countP f = if b then 36 ^ n else 0 := by
  cases b with
  | true => rw [if_pos rfl, ← throwSeqs_length n]; exact List.countP_eq_length.2 (by simpa using h)
  | false =>
    rw [if_neg (by simp)]
    exact List.countP_eq_zero.2 (fun l hl => by rw [h l hl]; simp)

/-- Ways to throw a sum that decides `r`. -/
def ways (point : Nat) (r : Option Bool) : Nat := throwSums.countP fun s => laterThrow point s == r

theorem sum_map_ite (L : List Nat) (p : Nat → Bool) (k : Nat) : (L.map fun s => if p s = true then k else 0).sum = L.countP p * k := by
  induction L with
  | nil => simp
  | cons a L ih =>
    rw [List.map_cons, List.sum_cons, ih, List.countP_cons]
    by_cases h : p a = true
    · simp [h]; ring
    · simp [h]

theorem count_later (point : Nat) (w : Bool) : ∀ n, (throwSeqs (n + 1)).countP (laterThrows point w) =
    ways point none ^ n * ways point (some w)
  | 0 => by
    rw [countP_throwSeqs]
    have : (fun s => (throwSeqs 0).countP fun l => laterThrows point w (s :: l)) =
        fun s => if (laterThrow point s == some w) = true then 1 else 0 := by
      funext s
      simp [throwSeqs, laterThrows, List.countP_cons]
    rw [this, sum_map_ite, pow_zero, Nat.one_mul, Nat.mul_one, ways]
  | n + 1 => by
    rw [countP_throwSeqs]
    have : (fun s => (throwSeqs (n + 1)).countP fun l => laterThrows point w (s :: l)) =
        fun s => if (laterThrow point s == none) = true then ways point none ^ n * ways point (some w) else 0 := by
      funext s
      have e : ∀ l ∈ throwSeqs (n + 1), laterThrows point w (s :: l) = (laterThrow point s == none && laterThrows point w l) := by
        intro l hl
        have := throwSeqs_ne (n + 1) l hl
        match l, this with
        | t :: l, _ => rfl
      rw [List.countP_congr (q := fun l => laterThrow point s == none && laterThrows point w l) (fun l hl => by rw [e l hl])]
      by_cases h : (laterThrow point s == none) = true
      · rw [if_pos h, h]; simp only [Bool.true_and]; exact count_later point w n
      · rw [if_neg h, Bool.not_eq_true] at *
        rw [h]; simp
    rw [this, sum_map_ite, ← ways, pow_succ]; ring

theorem count_game_one (w : Bool) : (throwSeqs 1).countP (isGame w) = if w then 8 else 4 := by
  cases w <;> decide +kernel

theorem sum_throwSums (f : Nat → Nat) : (throwSums.map f).sum = f 2 + 2 * f 3 + 3 * f 4 + 4 * f 5 + 5 * f 6 + 6 * f 7 + 5 * f 8 +
    4 * f 9 + 3 * f 10 + 2 * f 11 + f 12 := by
  have : throwSums = [2, 3, 4, 5, 6, 7, 3, 4, 5, 6, 7, 8, 4, 5, 6, 7, 8, 9, 5, 6, 7, 8, 9, 10, 6, 7, 8, 9, 10, 11, 7, 8, 9, 10, 11, 12] := rfl
  rw [this]
  simp only [List.map_cons, List.map_nil, List.sum_cons, List.sum_nil]
  ring

theorem count_game (w : Bool) (n : Nat) : (throwSeqs (n + 2)).countP (isGame w) =
    if w then 18 * 27 ^ n + 32 * 26 ^ n + 50 * 25 ^ n else 36 * 27 ^ n + 48 * 26 ^ n + 60 * 25 ^ n := by
  rw [countP_throwSeqs]
  have : (fun s => (throwSeqs (n + 1)).countP fun l => isGame w (s :: l)) =
      fun s => if (firstThrow s == none) = true then ways s none ^ n * ways s (some w) else 0 := by
    funext s
    have e : ∀ l ∈ throwSeqs (n + 1), isGame w (s :: l) = (firstThrow s == none && laterThrows s w l) := by
      intro l hl
      have := throwSeqs_ne (n + 1) l hl
      match l, this with
      | t :: l, _ => rfl
    rw [List.countP_congr (q := fun l => firstThrow s == none && laterThrows s w l) (fun l hl => by rw [e l hl])]
    by_cases h : (firstThrow s == none) = true
    · rw [if_pos h, h]; simp only [Bool.true_and]; exact count_later s w n
    · rw [if_neg h, Bool.not_eq_true] at *
      rw [h]; simp
  rw [this]
  have w4 : ways 4 none = 27 ∧ ways 5 none = 26 ∧ ways 6 none = 25 ∧ ways 8 none = 25 ∧ ways 9 none = 26 ∧ ways 10 none = 27 := by
    decide +kernel
  have v4 : ∀ w, ways 4 (some w) = (if w then 3 else 6) ∧ ways 5 (some w) = (if w then 4 else 6) ∧ ways 6 (some w) = (if w then 5 else 6) ∧
      ways 8 (some w) = (if w then 5 else 6) ∧ ways 9 (some w) = (if w then 4 else 6) ∧ ways 10 (some w) = (if w then 3 else 6) := by
    decide +kernel
  obtain ⟨a1, a2, a3, a4, a5, a6⟩ := w4
  obtain ⟨b1, b2, b3, b4, b5, b6⟩ := v4 w
  rw [sum_throwSums]
  have f0 : firstThrow 2 ≠ none ∧ firstThrow 3 ≠ none ∧ firstThrow 7 ≠ none ∧ firstThrow 11 ≠ none ∧ firstThrow 12 ≠ none := by decide
  have f1 : firstThrow 4 = none ∧ firstThrow 5 = none ∧ firstThrow 6 = none ∧ firstThrow 8 = none ∧ firstThrow 9 = none ∧
    firstThrow 10 = none := by decide
  obtain ⟨c1, c2, c3, c4, c5⟩ := f0
  obtain ⟨d1, d2, d3, d4, d5, d6⟩ := f1
  simp only [beq_iff_eq, c1, c2, c3, c4, c5, d1, d2, d3, d4, d5, d6, if_true, if_false, a1, a2, a3, a4, a5, a6,
    b1, b2, b3, b4, b5, b6]
  cases w
  · simp only [Bool.false_eq_true, if_false]; ring
  · simp only [if_true]; ring

theorem gameProb_one (w : Bool) : gameProb w 1 = if w then 2 / 9 else 1 / 9 := by
  rw [gameProb, count_game_one]
  cases w <;> norm_num

theorem gameProb_add_two (w : Bool) (n : Nat) : gameProb w (n + 2) =
    if w then (18 * (27 / 36) ^ n + 32 * (26 / 36) ^ n + 50 * (25 / 36) ^ n) / 1296
    else (36 * (27 / 36) ^ n + 48 * (26 / 36) ^ n + 60 * (25 / 36) ^ n) / 1296 := by
  have h : (36 : ℚ) ^ n ≠ 0 := by positivity
  rw [gameProb, count_game, pow_add]
  cases w
  · simp only [Bool.false_eq_true, if_false]
    push_cast
    rw [div_pow, div_pow, div_pow]
    field_simp
    norm_num
  · simp only [if_true]
    push_cast
    rw [div_pow, div_pow, div_pow]
    field_simp
    norm_num

/-- **C35.** For `i < 20` the expected fraction of class `i` is the probability that a game takes `i + 1` throws. -/
theorem C35_classes (i : Nat) (hi : i < 20) : crapsY i = gameProb true (i + 1) + gameProb false (i + 1) := by
  rw [crapsY, if_pos hi, crapsYLow]
  cases i with
  | zero => rw [gameProb_one, gameProb_one]; norm_num
  | succ i =>
    rw [if_neg (by omega), gameProb_add_two, gameProb_add_two, Nat.add_sub_cancel]
    simp only [Bool.false_eq_true, if_false, if_true]
    rw [show (13 / 18 : ℚ) = 26 / 36 from by norm_num]
    ring

theorem hasSum_geo (a b : ℝ) (h0 : 0 ≤ b) (h1 : b < 1) : HasSum (fun n : Nat => a * b ^ n) (a * (1 - b)⁻¹) :=
  (hasSum_geometric_of_lt_one h0 h1).mul_left a

theorem hasSum_gameProb (w : Bool) : HasSum (fun n => (gameProb w (n + 1) : ℝ)) (if w then 244 / 495 else 251 / 495) := by
  rw [← hasSum_nat_add_iff' 1]
  have e : ∀ n, (gameProb w (n + 1 + 1) : ℝ) = (if w then 18 / 1296 else 36 / 1296) * (27 / 36) ^ n +
      (if w then 32 / 1296 else 48 / 1296) * (26 / 36) ^ n + (if w then 50 / 1296 else 60 / 1296) * (25 / 36) ^ n := by
    intro n
    rw [gameProb_add_two]
    cases w
    · simp only [Bool.false_eq_true, if_false]; push_cast; ring
    · simp only [if_true]; push_cast; ring
  simp only [e]
  have s1 := hasSum_geo (if w then 18 / 1296 else 36 / 1296) (27 / 36) (by norm_num) (by norm_num)
  have s2 := hasSum_geo (if w then 32 / 1296 else 48 / 1296) (26 / 36) (by norm_num) (by norm_num)
  have s3 := hasSum_geo (if w then 50 / 1296 else 60 / 1296) (25 / 36) (by norm_num) (by norm_num)
  have hv : (if w then 244 / 495 else 251 / 495 : ℝ) - ∑ i ∈ Finset.range 1, (gameProb w (i + 1) : ℝ) =
      (if w then 18 / 1296 else 36 / 1296) * (1 - 27 / 36)⁻¹ + (if w then 32 / 1296 else 48 / 1296) * (1 - 26 / 36)⁻¹ +
        (if w then 50 / 1296 else 60 / 1296) * (1 - 25 / 36)⁻¹ := by
    rw [Finset.sum_range_one, gameProb_one]
    cases w
    · simp only [Bool.false_eq_true, if_false]; push_cast; norm_num
    · simp only [if_true]; push_cast; norm_num
  rw [hv]
  exact (s1.add s2).add s3

/-- **C35.** The expected fraction of games won is the probability of winning. -/
theorem C35_win : HasSum (fun n => (gameProb true (n + 1) : ℝ)) (crapsP : ℝ) := by
  have := hasSum_gameProb true
  simp only [if_true] at this
  rw [crapsP]; push_cast; exact this

/-- **C35.** A game ends with probability 1. -/
theorem C35_ends : HasSum (fun n => (gameProb true (n + 1) : ℝ) + (gameProb false (n + 1) : ℝ)) 1 := by
  have := (hasSum_gameProb true).add (hasSum_gameProb false)
  simp only [Bool.false_eq_true, if_false, if_true] at this
  convert this using 1
  norm_num

/-- **C35.** The expected fraction of class 20 is the probability that a game takes 21 throws or more. -/
theorem C35_last_class : HasSum (fun n => (gameProb true (n + 21) : ℝ) + (gameProb false (n + 21) : ℝ)) (crapsY 20 : ℝ) := by
  have h := (hasSum_nat_add_iff' 20).2 C35_ends
  have e : (crapsY 20 : ℝ) = 1 - ∑ i ∈ Finset.range 20, ((gameProb true (i + 1) : ℝ) + (gameProb false (i + 1) : ℝ)) := by
    have hs : ∀ n ≤ 20, (crapsSum n : ℝ) = ∑ i ∈ Finset.range n, ((gameProb true (i + 1) : ℝ) + (gameProb false (i + 1) : ℝ)) := by
      intro n
      induction n with
      | zero => intro _; simp [crapsSum]
      | succ n ih =>
        intro hn
        have hc := C35_classes n (by omega)
        rw [crapsY, if_pos (by omega)] at hc
        rw [Finset.sum_range_succ _ n, ← ih (by omega), crapsSum, hc]
        push_cast; ring
    rw [crapsY, if_neg (by omega), ← hs 20 le_rfl]
    push_cast; ring
  rw [e]
  exact h

/-- The probabilities count games: sequences of `n` throws are equally likely, and no game is the beginning of another. -/
theorem C35_prefix_free (d : Nat → Nat) (w w' : Bool) (m n : Nat) (h : isGame w (throwsFrom d 0 m) = true)
    (h' : isGame w' (throwsFrom d 0 n) = true) : m = n ∧ w = w' := by
  have e := C35_game d w m (m + n) 0 (by omega) h
  have e' := C35_game d w' n (m + n) 0 (by omega) h'
  rw [e] at e'
  simp only [Res.ok.injEq, Prod.mk.injEq] at e'
  obtain ⟨_, hw, hp⟩ := e'
  exact ⟨by omega, hw⟩

example : crapsY 1 = 61 / 324 ∧ gameProb true 1 = 2 / 9 := by
  refine ⟨by rw [crapsY, if_pos (by omega), crapsYLow]; norm_num, by rw [gameProb_one]; rfl⟩

/-- Two games: 3+1, 5+5, 2+2 (won in three throws), then 6+5 (won at once). -/
example : craps (fun i => [3, 1, 5, 5, 2, 2, 6, 5].getD i 0) 100 2 =
    .ok (2, [1, 0, 1, 0, 0, 0, 0, 0, 0, 0, 0, 0, 0, 0, 0, 0, 0, 0, 0, 0, 0]) := by decide +kernel

end Dh
