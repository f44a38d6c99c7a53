import Verif.Props.Report
import Mathlib.Order.Bounds.Basic
import Mathlib.Tactic.Linarith
import Mathlib.Tactic.IntervalCases
/-
Property C118: the histogram of the p-values.
-/
namespace Dh
namespace Spec

/-- The ten equal parts of the unit interval; what lies outside belongs to the first or to the last. -/
def inTenth (j : Nat) (p : ℚ) : Bool := (j = 0 || (j : ℚ) / 10 ≤ p) && (j = 9 || p < ((j : ℚ) + 1) / 10)

/-- The number of values in a part. -/
def tenths (ps : List ℚ) (j : Nat) : Nat := ps.countP (inTenth j)

/-- The scale: a star stands for so many values; at least one per cent of the number of p-values asked for, and enough to keep below 20 stars. -/
def isScale (psamples : Nat) (ps : List ℚ) (v : Nat) : Prop := (psamples : ℚ) / 100 ≤ v ∧ ∀ j < 10, tenths ps j < 20 * v

/-- The lines of the picture: 20 after the four lines of the title. -/
def pictureLines (text : List Char) : List (List Char) := ((text.splitOn '\n').drop 4).take 20

/-- The number on the axis at the left of a line. -/
def axisLabel (line : List Char) : List Char := trim ((fieldsOf '|' line).headD []).tail

/-- The cells of a line, to the right of the axis. -/
def lineCells (line : List Char) : List (List Char) := (fieldsOf '|' line).tail.take 10

end Spec
open Spec

/-- The index of the bin. -/
def tenthOf (x : ℚ) : Nat := if x < 0 then 0 else if ⌊x * 10⌋ ≥ 10 then 9 else ⌊x * 10⌋.toNat

theorem tenthOf_lt (x : ℚ) : tenthOf x < 10 := by
  rw [tenthOf]
  split
  · omega
  · split
    · omega
    · omega

theorem inTenth_eq (x : ℚ) (j : Nat) (hj : j < 10) : inTenth j x = decide (j = tenthOf x) := by
  rw [Bool.eq_iff_iff, decide_eq_true_iff]
  simp only [inTenth, Bool.and_eq_true, Bool.or_eq_true, decide_eq_true_eq]
  rw [tenthOf]
  have hjq : (0 : ℚ) ≤ j := Nat.cast_nonneg j
  by_cases hx : x < 0
  · rw [if_pos hx]
    constructor
    · rintro ⟨h1 | h1, -⟩
      · exact h1
      · have : (0 : ℚ) ≤ (j : ℚ) / 10 := by positivity
        linarith
    · rintro rfl
      exact ⟨Or.inl rfl, Or.inr (by norm_num; linarith)⟩
  rw [if_neg hx]
  have h0 : 0 ≤ x := not_lt.1 hx
  have hf0 : 0 ≤ ⌊x * 10⌋ := Int.floor_nonneg.2 (by linarith)
  have f1 := Int.floor_le (x * 10)
  have f2 := Int.lt_floor_add_one (x * 10)
  have hle : (j : ℚ) / 10 ≤ x ↔ (j : ℤ) ≤ ⌊x * 10⌋ := by
    rw [Int.le_floor, div_le_iff₀ (by norm_num)]
    simp
  have hlt : x < ((j : ℚ) + 1) / 10 ↔ ⌊x * 10⌋ < (j : ℤ) + 1 := by
    rw [Int.floor_lt, lt_div_iff₀ (by norm_num)]
    push_cast
    rfl
  rw [hle, hlt]
  split <;> omega

theorem trunc_range (x : ℚ) : (∃ i, truncInt (x / (1 / 10)) = .ok i) ↔ -2147483649 < x * 10 ∧ x * 10 < 2147483648 := by
  have e : x / (1 / 10) = x * 10 := by ring
  rw [e, truncInt]
  have hfl : ∀ n : Int, ⌊x * 10⌋ ≤ n ↔ x * 10 < n + 1 := fun n => by
    rw [← Int.lt_add_one_iff, Int.floor_lt]
    push_cast
    rfl
  have hce : ∀ n : Int, n ≤ ⌈x * 10⌉ ↔ (n : ℚ) - 1 < x * 10 := fun n => by
    rw [← Int.sub_one_lt_iff, Int.lt_ceil]
    push_cast
    rfl
  by_cases h : 0 ≤ x * 10
  · rw [if_pos h]
    have h0 : 0 ≤ ⌊x * 10⌋ := Int.floor_nonneg.2 h
    have := hfl 2147483647
    norm_num at this
    constructor
    · rintro ⟨i, hi⟩
      split at hi
      · rename_i hh
        exact ⟨by linarith, this.1 hh.2⟩
      · cases hi
    · rintro ⟨-, h2⟩
      exact ⟨_, if_pos ⟨by omega, this.2 h2⟩⟩
  · rw [if_neg h]
    have hneg : ⌈x * 10⌉ ≤ 0 := Int.ceil_le.2 (by push_cast; linarith)
    have := hce (-2147483648)
    norm_num at this
    constructor
    · rintro ⟨i, hi⟩
      split at hi
      · rename_i hh
        exact ⟨this.1 hh.1, by linarith⟩
      · cases hi
    · rintro ⟨h1, -⟩
      exact ⟨_, if_pos ⟨this.2 h1, by omega⟩⟩

theorem trunc_index {x : ℚ} {i : Int} (h : truncInt (x / (1 / 10)) = .ok i) :
    (if (if i < 0 then 0 else i) ≥ 10 then 9 else (if i < 0 then 0 else i) : Int).toNat = tenthOf x := by
  have e : x / (1 / 10) = x * 10 := by ring
  rw [e, truncInt] at h
  rw [tenthOf]
  by_cases hx : x < 0
  · rw [if_neg (show ¬ 0 ≤ x * 10 by linarith)] at h
    split at h
    swap
    · cases h
    have hi := Res.ok.inj h
    rw [if_pos hx]
    have : ⌈x * 10⌉ ≤ 0 := Int.ceil_le.2 (by push_cast; linarith)
    split
    · split at * <;> omega
    · split <;> omega
  · rw [if_pos (show 0 ≤ x * 10 by linarith)] at h
    split at h
    swap
    · cases h
    have hi := Res.ok.inj h
    rw [if_neg hx, hi]
    have : 0 ≤ i := by
      rw [← hi]
      exact Int.floor_nonneg.2 (by linarith)
    rw [if_neg (by omega : ¬ i < 0)]
    split <;> rfl

theorem histBins_spec : ∀ (xs : List ℚ) (f : Nat → Nat) (m : Nat), (∀ x ∈ xs, -2147483649 < x * 10 ∧ x * 10 < 2147483648) →
    (∀ j < 10, f j ≤ m) → (m = 0 ∨ ∃ j < 10, f j = m) →
    ∃ m', histBins xs ((List.range 10).map f) m = .ok ((List.range 10).map fun j => f j + tenths xs j, m') ∧
      (∀ j < 10, f j + tenths xs j ≤ m') ∧ (m' = 0 ∨ ∃ j < 10, f j + tenths xs j = m')
  | [], f, m, _, h1, h2 => ⟨m, by simp [histBins, tenths], by simpa [tenths] using h1, by simpa [tenths] using h2⟩
  | x :: xs, f, m, hr, h1, h2 => by
    obtain ⟨i, hi⟩ := (trunc_range x).2 (hr x (by simp))
    have ht := tenthOf_lt x
    have key : ∀ j < 10, (fun j => if j = tenthOf x then f j + 1 else f j) j + tenths xs j = f j + tenths (x :: xs) j := by
      intro j hj
      have e1 : tenths (x :: xs) j = tenths xs j + if j = tenthOf x then 1 else 0 := by
        rw [tenths, List.countP_cons, inTenth_eq x j hj, tenths]
        simp
      rw [e1]
      dsimp only
      split <;> omega
    obtain ⟨m', r1, r2, r3⟩ := histBins_spec xs (fun j => if j = tenthOf x then f j + 1 else f j)
      (if f (tenthOf x) + 1 > m then f (tenthOf x) + 1 else m) (fun y hy => hr y (List.mem_cons_of_mem _ hy))
      (by
        intro j hj
        have := h1 j hj
        by_cases e : j = tenthOf x
        · subst e
          simp only [if_true]
          split <;> omega
        · simp only [e, if_false]
          split <;> omega)
      (by
        right
        by_cases e : f (tenthOf x) + 1 > m
        · exact ⟨tenthOf x, ht, by simp [e]⟩
        · rcases h2 with h2 | ⟨j, hj, h2⟩
          · omega
          · refine ⟨j, hj, ?_⟩
            have : j ≠ tenthOf x := by
              rintro rfl
              omega
            simp [e, this, h2])
    refine ⟨m', ?_, fun j hj => by rw [← key j hj]; exact r2 j hj, ?_⟩
    · rw [histBins, hi]
      simp only [Res.bind_ok]
      rw [trunc_index hi]
      have hrd : rd ((List.range 10).map f) (tenthOf x) = .ok (f (tenthOf x)) := rd_some (by simp [ht])
      rw [hrd]
      simp only [Res.bind_ok]
      have hwr : wr ((List.range 10).map f) (tenthOf x) (f (tenthOf x) + 1) =
          .ok ((List.range 10).map fun j => if j = tenthOf x then f j + 1 else f j) := by
        rw [wr, if_pos (by simpa using ht)]
        congr 1
        apply List.ext_getElem
        · simp
        · intro n hn1 hn2
          rw [List.getElem_set]
          simp only [List.getElem_map, List.getElem_range]
          by_cases e : tenthOf x = n
          · subst e
            simp
          · rw [if_neg e, if_neg (fun h => e h.symm)]
      rw [hwr]
      simp only [Res.bind_ok]
      rw [r1]
      congr 2
      exact List.map_congr_left fun j hj => key j (List.mem_range.1 hj)
    · rcases r3 with r3 | ⟨j, hj, r3⟩
      · exact Or.inl r3
      · exact Or.inr ⟨j, hj, by rw [← key j hj]; exact r3⟩

theorem histScale_spec (m : Nat) : ∀ (fuel v : Nat), m + 1 < v + fuel → 0 < fuel →
    ∃ w, histScale m fuel v = .ok w ∧ v ≤ w ∧ m < 20 * w ∧ ∀ u, v ≤ u → m < 20 * u → w ≤ u
  | 0, v, _, h => absurd h (by omega)
  | fuel + 1, v, h, _ => by
    rw [histScale]
    by_cases hm : m ≥ 20 * v
    · rw [if_pos hm]
      obtain ⟨w, h1, h2, h3, h4⟩ := histScale_spec m fuel (v + 1) (by omega) (by omega)
      refine ⟨w, h1, by omega, h3, fun u hu hu2 => h4 u ?_ hu2⟩
      by_contra hc
      have : u = v := by omega
      subst this
      omega
    · rw [if_neg hm]
      exact ⟨v, rfl, le_refl _, by omega, fun u hu _ => hu⟩

theorem ceil_hundred (n v : Nat) : (n : ℚ) / 100 ≤ v ↔ (n + 99) / 100 ≤ v := by
  rw [div_le_iff₀ (by norm_num)]
  have : (n : ℚ) ≤ v * 100 ↔ n ≤ v * 100 := by exact_mod_cast Iff.rfl
  rw [this]
  omega

/-- The text is made of these lines. -/
theorem histogram_text {psamples : Nat} {ps : List ℚ} (h : ∀ p ∈ ps, -2147483649 < p * 10 ∧ p * 10 < 2147483648) :
    ∃ v, IsLeast {v | isScale psamples ps v} v ∧ outputHistogram psamples ps = .ok (repRule ++
      ("#                         Histogram of test p-values                          #\n".toList ++ (repRule ++
      ("# Bin scale = 0.100000\n".toList ++ (((List.range 20).flatMap fun k => histLine ((List.range 10).map (tenths ps)) v (20 - k)) ++
      ("#       |--------------------------------------------------\n".toList ++
      ("#       | 0.1| 0.2| 0.3| 0.4| 0.5| 0.6| 0.7| 0.8| 0.9| 1.0|\n".toList ++ repRule))))))) := by
  obtain ⟨m, h1, h2, h3⟩ := histBins_spec ps (fun _ => 0) 0 h (fun _ _ => le_refl _) (Or.inl rfl)
  obtain ⟨v, g1, g2, g3, g4⟩ := histScale_spec m (m + 2) ((psamples + 99) / 100) (by omega) (by omega)
  have hs : ∀ w, isScale psamples ps w ↔ (psamples + 99) / 100 ≤ w ∧ m < 20 * w := by
    intro w
    rw [isScale, ceil_hundred]
    refine and_congr_right fun hw => ⟨fun hh => ?_, fun hh j hj => ?_⟩
    · rcases h3 with h3 | ⟨j, hj, h3⟩
      · have := hh 0 (by omega)
        omega
      · have := hh j hj
        omega
    · have := h2 j hj
      omega
  refine ⟨v, ⟨(hs v).2 ⟨g2, g3⟩, fun w hw => g4 w ((hs w).1 hw).1 ((hs w).1 hw).2⟩, ?_⟩
  rw [outputHistogram, show List.replicate 10 0 = (List.range 10).map (fun _ => 0) by decide, h1]
  simp only [Res.bind_ok]
  rw [g1]
  simp only [Res.bind_ok, Nat.zero_add]

/-- **C118.** The histogram is printed exactly if the values are in the range of `int` when multiplied by 10; in particular for probabilities. -/
theorem C118_defined (psamples : Nat) (ps : List ℚ) :
    (∃ text, outputHistogram psamples ps = .ok text) ↔ ∀ p ∈ ps, -2147483649 < p * 10 ∧ p * 10 < 2147483648 := by
  constructor
  · rintro ⟨text, h⟩
    rw [outputHistogram] at h
    obtain ⟨⟨b, m⟩, h1, -⟩ := Res.bind_eq_ok.1 h
    clear h
    revert h1
    generalize List.replicate 10 0 = bin
    generalize 0 = m0
    induction ps generalizing bin m0 with
    | nil => simp
    | cons x xs ih =>
      intro h1
      rw [histBins] at h1
      obtain ⟨i, hi, h1⟩ := Res.bind_eq_ok.1 h1
      obtain ⟨b', -, h1⟩ := Res.bind_eq_ok.1 h1
      obtain ⟨bin', -, h1⟩ := Res.bind_eq_ok.1 h1
      intro p hp
      rcases List.mem_cons.1 hp with rfl | hp
      · exact (trunc_range p).1 ⟨i, hi⟩
      · exact ih bin' _ h1 p hp
  · intro h
    obtain ⟨v, -, h1⟩ := histogram_text (psamples := psamples) h
    exact ⟨_, h1⟩

theorem trim_blanks_cons (s : List Char) (hs : Cell s) (k : Nat) : trim (List.replicate k ' ' ++ s) = s := by
  rw [trim, dropWhile_blanks, dropWhile_cell (cell_blank hs), dropWhile_cell, List.reverse_reverse]
  intro ch hc
  exact cell_blank hs ch (List.mem_reverse.1 hc)

theorem trim_hash (s : List Char) (hs : Cell s) (hne : s ≠ []) (k : Nat) :
    trim ('#' :: (List.replicate k ' ' ++ s)) = '#' :: (List.replicate k ' ' ++ s) := by
  rw [trim, List.dropWhile_cons, if_neg (by decide)]
  have : ('#' :: (List.replicate k ' ' ++ s)).reverse.dropWhile (fun x => decide (x = ' ')) = ('#' :: (List.replicate k ' ' ++ s)).reverse := by
    rw [List.reverse_cons, List.reverse_append]
    cases hr : s.reverse with
    | nil => exact absurd (List.reverse_eq_nil_iff.1 hr) hne
    | cons a l =>
      rw [List.cons_append, List.cons_append, List.dropWhile_cons, if_neg]
      have : a ∈ s := by
        rw [← List.mem_reverse, hr]
        simp
      simpa using cell_blank hs a this
  rw [this, List.reverse_reverse]

theorem no_bar {s : List Char} (h : ∀ ch ∈ s, ch = ' ' ∨ cellChar ch = true) : '|' ∉ s := by
  intro hm
  rcases h _ hm with h | h
  · exact absurd h (by decide)
  · exact absurd h (by decide)

/-- A line of the picture without its end. -/
def barLine (b : List Nat) (v i : Nat) : List Char :=
  ((if i % 2 = 0 then "#  ".toList ++ fmtRight 5 (Nat.toDigits 10 (i * v)) else "#       ".toList) ::
    b.map fun n => if n ≥ i * v then "****".toList else "    ".toList).flatMap fun l => l ++ ['|']

theorem histLine_eq (b : List Nat) (v i : Nat) : histLine b v i = barLine b v i ++ ['\n'] := by
  rw [histLine, barLine, List.flatMap_cons, List.flatMap_map]
  have e : (fun n => (if n ≥ i * v then "****".toList else "    ".toList) ++ ['|']) =
      fun n => if n ≥ i * v then "****|".toList else "    |".toList := by
    funext n
    split <;> rfl
  rw [e]
  congr 2
  split
  · rfl
  · rfl

theorem barLine_fields (b : List Nat) (v i : Nat) : fieldsOf '|' (barLine b v i) =
    trim (if i % 2 = 0 then "#  ".toList ++ fmtRight 5 (Nat.toDigits 10 (i * v)) else "#       ".toList) ::
      ((b.map fun n => if n ≥ i * v then "****".toList else []) ++ [[]]) := by
  have h := splitOn_ended '|' [] ((if i % 2 = 0 then "#  ".toList ++ fmtRight 5 (Nat.toDigits 10 (i * v)) else "#       ".toList) ::
    b.map fun n => if n ≥ i * v then "****".toList else "    ".toList) (by
      intro l hl
      rcases List.mem_cons.1 hl with rfl | hl
      · split
        · rw [List.mem_append, not_or]
          refine ⟨by decide, no_bar fun ch hc => ?_⟩
          rcases List.mem_append.1 hc with h1 | h1
          · exact Or.inl (List.mem_replicate.1 h1).2
          · exact Or.inr (digits_cell _ _ h1)
        · decide
      · obtain ⟨n, -, rfl⟩ := List.mem_map.1 hl
        split <;> decide)
  rw [List.append_nil] at h
  rw [fieldsOf, barLine, h, List.cons_append, List.map_cons, List.map_append, List.map_map]
  congr 2
  refine List.map_congr_left fun n _ => ?_
  simp only [Function.comp]
  split <;> decide

theorem barLine_line (b : List Nat) (v i : Nat) : '\n' ∉ barLine b v i := by
  rw [barLine, List.flatMap_cons, List.mem_append, List.mem_append, List.flatMap_map]
  rintro ((h | h) | h)
  · revert h
    split
    · exact app_line (by decide) (fmtRight_line _ (digits_line _))
    · decide
  · exact absurd h (by decide)
  · obtain ⟨n, -, h⟩ := List.mem_flatMap.1 h
    revert h
    split <;> decide

/-- **C118.** Column `j` of the line at level `i` holds stars exactly if the `j`-th tenth has at least `i` times the scale; the even lines are
marked with this number. -/
theorem C118_picture (psamples : Nat) (ps : List ℚ) (text : List Char) (h : outputHistogram psamples ps = .ok text) :
    ∃ v, IsLeast {v | isScale psamples ps v} v ∧ (pictureLines text).length = 20 ∧ ∀ k, (hk : k < 20) →
      lineCells ((pictureLines text).getD k []) = (List.range 10).map (fun j => if tenths ps j ≥ (20 - k) * v then "****".toList else []) ∧
      axisLabel ((pictureLines text).getD k []) = if k % 2 = 0 then (toString ((20 - k) * v)).toList else [] := by
  obtain ⟨v, hv, h1⟩ := histogram_text (psamples := psamples) ((C118_defined psamples ps).1 ⟨text, h⟩)
  rw [h] at h1
  have ht := Res.ok.inj h1
  have hlines : pictureLines text = (List.range 20).map fun k => barLine ((List.range 10).map (tenths ps)) v (20 - k) := by
    have e1 : text = (([repRule.dropLast, "#                         Histogram of test p-values                          #".toList, repRule.dropLast,
        "# Bin scale = 0.100000".toList] ++ (List.range 20).map fun k => barLine ((List.range 10).map (tenths ps)) v (20 - k)).flatMap
          fun l => l ++ ['\n']) ++ ("#       |--------------------------------------------------\n".toList ++
      ("#       | 0.1| 0.2| 0.3| 0.4| 0.5| 0.6| 0.7| 0.8| 0.9| 1.0|\n".toList ++ repRule)) := by
      rw [ht, List.flatMap_append, List.flatMap_map]
      simp only [histLine_eq, List.flatMap_cons, List.flatMap_nil, List.append_nil]
      have r : repRule.dropLast ++ ['\n'] = repRule := by decide
      rw [r, show "#                         Histogram of test p-values                          #".toList ++ ['\n'] =
        "#                         Histogram of test p-values                          #\n".toList by decide,
        show "# Bin scale = 0.100000".toList ++ ['\n'] = "# Bin scale = 0.100000\n".toList by decide]
      simp only [List.append_assoc]
    rw [pictureLines, e1, splitOn_ended, List.append_assoc]
    · rw [show ∀ (a b c d : List Char) (l : List (List Char)), ([a, b, c, d] ++ l).drop 4 = l from fun _ _ _ _ _ => rfl,
        List.take_append_of_le_length (by simp), List.take_of_length_le (by simp)]
    · intro l hl
      rcases List.mem_append.1 hl with hl | hl
      · have hd : ∀ l ∈ [repRule.dropLast, "#                         Histogram of test p-values                          #".toList, repRule.dropLast,
            "# Bin scale = 0.100000".toList], '\n' ∉ l := by decide
        exact hd l hl
      · obtain ⟨k, -, rfl⟩ := List.mem_map.1 hl
        exact barLine_line _ _ _
  refine ⟨v, hv, by rw [hlines]; simp, fun k hk => ?_⟩
  have e : (pictureLines text).getD k [] = barLine ((List.range 10).map (tenths ps)) v (20 - k) := by
    rw [hlines]
    simp [hk]
  rw [e]
  constructor
  · rw [lineCells, barLine_fields, List.tail_cons, List.map_map, List.take_append_of_le_length (by simp), List.take_of_length_le (by simp)]
    rfl
  · rw [axisLabel, barLine_fields, List.headD_cons]
    by_cases hp : k % 2 = 0
    · rw [if_pos hp, if_pos (by omega)]
      have e2 : "#  ".toList ++ fmtRight 5 (Nat.toDigits 10 ((20 - k) * v)) =
          '#' :: (List.replicate (2 + (5 - (Nat.toDigits 10 ((20 - k) * v)).length)) ' ' ++ Nat.toDigits 10 ((20 - k) * v)) := by
        rw [fmtRight, List.replicate_add]
        rfl
      have hne : Nat.toDigits 10 ((20 - k) * v) ≠ [] := Nat.toDigits_ne_nil
      rw [e2, trim_hash _ (digits_cell _) hne, List.tail_cons, trim_blanks_cons _ (digits_cell _)]
      show _ = (Nat.repr _).toList
      simp [Nat.repr]
    · rw [if_neg hp, if_neg (by omega)]
      decide

/-- **C118.** So the height of a column tells the number of values in it up to the scale, and the top line is always empty. -/
theorem C118_height (psamples : Nat) (ps : List ℚ) (text : List Char) (h : outputHistogram psamples ps = .ok text) :
    ∃ v, IsLeast {v | isScale psamples ps v} v ∧ ∀ j < 10,
      (pictureLines text).countP (fun l => (lineCells l).getD j [] = "****".toList) = tenths ps j / v ∧ tenths ps j / v < 20 := by
  obtain ⟨v, hv, h1, h2⟩ := C118_picture psamples ps text h
  have hpos : 0 < v := by
    have := hv.1.2 0 (by omega)
    omega
  refine ⟨v, hv, fun j hj => ?_⟩
  have hlt : tenths ps j / v < 20 := (Nat.div_lt_iff_lt_mul hpos).2 (hv.1.2 j hj)
  refine ⟨?_, hlt⟩
  have e : pictureLines text = (List.range 20).map fun k => (pictureLines text).getD k [] := by
    apply List.ext_getElem
    · simp [h1]
    · intro n hn1 hn2
      simp [hn1]
  rw [e, List.countP_map]
  have e2 : (List.range 20).countP ((fun l => decide ((lineCells l).getD j [] = "****".toList)) ∘ fun k => (pictureLines text).getD k []) =
      (List.range 20).countP (fun k => decide (20 - k ≤ tenths ps j / v)) := by
    refine List.countP_congr fun k hk => ?_
    have hk' := List.mem_range.1 hk
    simp only [Function.comp, decide_eq_true_eq]
    rw [(h2 k hk').1, Nat.le_div_iff_mul_le hpos]
    simp only [List.getD_eq_getElem?_getD, List.getElem?_map, List.getElem?_range hj, Option.map_some, Option.getD_some]
    by_cases hh : tenths ps j ≥ (20 - k) * v
    · rw [if_pos hh]
      exact ⟨fun _ => hh, fun _ => rfl⟩
    · rw [if_neg hh]
      exact ⟨fun h => absurd h (by decide), fun h => absurd h hh⟩
  rw [e2]
  generalize tenths ps j / v = n at hlt
  interval_cases n <;> decide

/-- **C118.** Each value is counted once. -/
theorem C118_total (ps : List ℚ) : ((List.range 10).map (tenths ps)).sum = ps.length := by
  induction ps with
  | nil => decide
  | cons x xs ih =>
    have ht := tenthOf_lt x
    have e : (List.range 10).map (tenths (x :: xs)) = (List.range 10).map fun j => tenths xs j + if j = tenthOf x then 1 else 0 := by
      refine List.map_congr_left fun j hj => ?_
      rw [tenths, List.countP_cons, inTenth_eq x j (List.mem_range.1 hj), tenths]
      simp
    rw [e, List.sum_map_add, ih, List.length_cons]
    congr 1
    generalize tenthOf x = n at ht
    interval_cases n <;> decide

/-- 45 values, 41 of them in the first tenth (scale 3), 3 in the third and 1 in the last. -/
example : (match outputHistogram 100 (List.replicate 41 0 ++ List.replicate 3 (1 / 4) ++ [1]) with
    | .ok text => [lineCells ((pictureLines text).getD 6 []), lineCells ((pictureLines text).getD 7 []),
        lineCells ((pictureLines text).getD 19 []), [axisLabel ((pictureLines text).getD 10 [])]]
    | _ => []) =
    [List.replicate 10 [], "****".toList :: List.replicate 9 [], ["****".toList, [], "****".toList, [], [], [], [], [], [], []],
      ["30".toList]] := by
  decide +kernel

end Dh
