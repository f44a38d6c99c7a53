import Verif.Props.SqueezeMean
import Verif.Props.OrderPower
/-
C146: what diehard_squeeze always finds.
-/
namespace Dh

open Spec

/-- At most as many cells are used as there are, and at least the large ones. -/
theorem usedCells_length (cutoff : ℚ) (cs : List (ℚ × ℚ)) :
    (usedCells cutoff cs).length ≤ cs.length ∧ cs.countP (fun c => decide (cutoff ≤ c.2)) ≤ (usedCells cutoff cs).length := by
  have h1 := List.length_eq_countP_add_countP (fun c : ℚ × ℚ => decide (cutoff ≤ c.2)) (l := cs)
  have h2 : (smallCells cutoff cs).length = cs.countP (fun c => decide ¬ (decide (cutoff ≤ c.2) = true)) := by
    rw [smallCells, ← List.countP_eq_length_filter]
    congr 1
    funext c
    simp
  have h3 : (bigCells cutoff cs).length = cs.countP (fun c => decide (cutoff ≤ c.2)) := by
    rw [bigCells, ← List.countP_eq_length_filter]
  rw [usedCells, List.length_append]
  split
  · rename_i h
    have := List.length_pos_of_ne_nil h.1
    rw [List.length_singleton]
    omega
  · rw [List.length_nil]
    omega

/-- The statistic of the squeeze test on deviates that give trials of `js` steps. -/
theorem squeeze_eval (prod : Int → Nat → ℚ) (hp : ∀ k p, 0 ≤ k → 0 ≤ prod k p ∧ prod k p ≤ k) (n : Nat) (hn : 6000 ≤ n) :
    ∃ js w, SqueezeTrials prod 0 js ∧ js.length = n ∧ squeezeTest prod n = .ok w ∧ 0 < w.ndof ∧ w.ndof ≤ 42 ∧
      ∀ c < 43, 5 ≤ n * sqHyp c → ((js.countP (fun j => max 6 j = c + 6) : ℕ) - n * sqHyp c) ^ 2 / (n * sqHyp c) ≤ w.chisq := by
  obtain ⟨js, x, e1, e2, e3, -, e5, -, e7⟩ := C37_squeeze prod hp n
  obtain ⟨w, h1, h2, -, h3, -⟩ := C16_vtest_eval { vtestCreate 43 with
      cutoff := 5
      x := x.map (Nat.cast : Nat → ℚ)
      y := (List.range 43).map fun c => (n : ℚ) * sqHyp c } (by simp [vtestCreate, e5]) (by simp [vtestCreate]) (by norm_num)
  have hnq : (6000 : ℚ) ≤ n := by exact_mod_cast hn
  have hz : ((x.map (Nat.cast : Nat → ℚ)).zip ((List.range 43).map fun c => (n : ℚ) * sqHyp c)).length = 43 := by simp [e5]
  have hl := usedCells_length 5 ((x.map (Nat.cast : Nat → ℚ)).zip ((List.range 43).map fun c => (n : ℚ) * sqHyp c))
  have hb : 2 ≤ ((x.map (Nat.cast : Nat → ℚ)).zip ((List.range 43).map fun c => (n : ℚ) * sqHyp c)).countP (fun c => decide ((5 : ℚ) ≤ c.2)) := by
    have e : ((x.map (Nat.cast : Nat → ℚ)).zip ((List.range 43).map fun c => (n : ℚ) * sqHyp c)).countP (fun c => decide ((5 : ℚ) ≤ c.2)) =
        ((List.range 43).map fun c => (n : ℚ) * sqHyp c).countP (fun y => decide ((5 : ℚ) ≤ y)) := by
      rw [← List.map_snd_zip (l₁ := x.map (Nat.cast : Nat → ℚ)) (l₂ := (List.range 43).map fun c => (n : ℚ) * sqHyp c) (by simp [e5]), List.countP_map,
        List.map_snd_zip (by simp [e5])]
      rfl
    rw [e, List.countP_map]
    refine le_trans ?_ (List.countP_mono_left (p := fun c => decide (100000 ≤ squeezeTable.getD c 0)) fun c _ hc => ?_)
    · decide +kernel
    · simp only [Function.comp, decide_eq_true_eq] at hc ⊢
      have : (100000 : ℚ) ≤ (squeezeTable.getD c 0 : ℕ) := by exact_mod_cast hc
      rw [sqHyp]
      have h4 : (100000 : ℚ) / 100000000 ≤ ((squeezeTable.getD c 0 : ℕ) : ℚ) / 100000000 := div_le_div_of_nonneg_right this (by norm_num)
      nlinarith
  have hd : w.ndof = (usedCells 5 ((x.map (Nat.cast : Nat → ℚ)).zip ((List.range 43).map fun c => (n : ℚ) * sqHyp c))).length - 1 := by
    rw [h3 rfl]
    simp only
    rw [hz] at hl
    omega
  refine ⟨js, w, e3, e2, ?_, by omega, by omega, fun c hc h5 => ?_⟩
  · rw [squeezeTest, squeezeExpected_ok n 43 0 _ rfl (by simp [vtestCreate]) (fun k hk => absurd hk (Nat.not_lt_zero k)), Res.bind_ok, e1, Res.bind_ok]
    exact h1
  · rw [h2, ← e7 c]
    refine pearson_sum_ge _ (usedCells_pos 5 (by norm_num) _) ((x.getD c 0 : ℚ), (n : ℚ) * sqHyp c) (bigCells_used 5 _ _ ?_ h5)
    refine List.mem_iff_getElem.2 ⟨c, by simp [e5]; omega, ?_⟩
    rw [List.getElem_zip, List.getElem_map, List.getElem_map, List.getElem_range, List.getD_eq_getElem _ _ (by omega)]

/-- **C146.** A number of steps that no trial can take: if the table of the test expects 91 such trials or more, the p-value is at most 0.0004. -/
theorem C146_missing (prod : Int → Nat → ℚ) (hp : ∀ k p, 0 ≤ k → 0 ≤ prod k p ∧ prod k p ≤ k) (n : Nat) (hn : 6000 ≤ n) (c : Nat) (hc1 : 1 ≤ c) (hc : c < 43)
    (h91 : 91 ≤ n * sqHyp c) (hno : ∀ p, ¬ SqueezeTrial prod p (c + 6)) :
    ∃ w, squeezeTest prod n = .ok w ∧ 0 ≤ vtestPvalue gammaTail w ∧ vtestPvalue gammaTail w ≤ 0.0004 := by
  obtain ⟨js, w, h1, -, h2, h3, h4, h5⟩ := squeeze_eval prod hp n hn
  refine ⟨w, h2, ?_⟩
  have h0 : js.countP (fun j => max 6 j = c + 6) = 0 := by
    refine List.countP_eq_zero.2 fun j hj => ?_
    have hne : ∀ (js : List Nat) (p : Nat), SqueezeTrials prod p js → ∀ j ∈ js, j ≠ c + 6 := by
      intro js
      induction js with
      | nil => simp
      | cons i js ih =>
        intro p hs j hj
        rcases List.mem_cons.1 hj with rfl | hm
        · intro e
          exact hno p (e ▸ hs.1)
        · exact ih _ hs.2 j hm
    have := hne js 0 h1 j hj
    simp only [decide_eq_true_eq]
    omega
  have h6 := h5 c hc (by linarith)
  rw [h0] at h6
  have h7 : (91 : ℚ) ≤ w.chisq := by
    refine le_trans ?_ h6
    rw [le_div_iff₀ (by linarith)]
    push_cast
    nlinarith
  refine vtestPvalue_low w h3 91 (by norm_num) (by exact_mod_cast h7) ?_
  have : (w.ndof : ℝ) ≤ 42 := by exact_mod_cast h4
  linarith

/-- Deviates of at least 1/2: the number is at best halved. -/
theorem squeezed_high (prod : Int → Nat → ℚ) (h : ∀ (k : ℤ) p, 1 ≤ k → (k : ℚ) / 2 ≤ prod k p) (p j : Nat) : 2147483647 ≤ 2 ^ j * squeezed prod p j := by
  induction j with
  | zero => simp [squeezed]
  | succ j ih =>
    have h1 : 1 ≤ squeezed prod p j := by
      by_contra hc
      have : (2 : ℤ) ^ j * squeezed prod p j ≤ 0 := mul_nonpos_of_nonneg_of_nonpos (by positivity) (by omega)
      omega
    have h2 : (squeezed prod p j : ℚ) / 2 ≤ (squeezed prod p (j + 1) : ℤ) := (h _ (p + j) h1).trans (Int.le_ceil _)
    have h3 : squeezed prod p j ≤ 2 * squeezed prod p (j + 1) := by
      have : (squeezed prod p j : ℚ) ≤ 2 * (squeezed prod p (j + 1) : ℤ) := by linarith
      exact_mod_cast this
    calc (2147483647 : ℤ) ≤ 2 ^ j * squeezed prod p j := ih
      _ ≤ 2 ^ j * (2 * squeezed prod p (j + 1)) := mul_le_mul_of_nonneg_left h3 (by positivity)
      _ = _ := by ring

/-- Deviates of at most 1/2: the number is at least halved, up to rounding. -/
theorem squeezed_low (prod : Int → Nat → ℚ) (hp : ∀ k p, 0 ≤ k → 0 ≤ prod k p ∧ prod k p ≤ k) (h : ∀ k p, 1 ≤ k → prod k p ≤ (k : ℚ) / 2) (p j : Nat) :
    2 ^ j * (squeezed prod p j - 1) ≤ 2147483646 := by
  induction j with
  | zero => simp [squeezed]
  | succ j ih =>
    have h0 := (squeezed_range prod hp p j).1
    rcases eq_or_lt_of_le h0 with e | h1
    · have h2 := (hp _ (p + j) h0).2
      rw [← e] at h2
      have : squeezed prod p (j + 1) ≤ 0 := by
        rw [squeezed, ← e]
        exact Int.ceil_le.2 h2
      have h3 : (2 : ℤ) ^ (j + 1) * (squeezed prod p (j + 1) - 1) ≤ 0 := mul_nonpos_of_nonneg_of_nonpos (by positivity) (by omega)
      omega
    · have h2 : squeezed prod p (j + 1) ≤ (squeezed prod p j + 1) / 2 := by
        refine Int.ceil_le.2 ((h _ (p + j) h1).trans ?_)
        have : squeezed prod p j ≤ 2 * ((squeezed prod p j + 1) / 2) := by omega
        have : (squeezed prod p j : ℚ) ≤ 2 * (((squeezed prod p j + 1) / 2 : ℤ) : ℚ) := by exact_mod_cast this
        linarith
      have h3 : 2 * (squeezed prod p (j + 1) - 1) ≤ squeezed prod p j - 1 := by omega
      calc (2 : ℤ) ^ (j + 1) * (squeezed prod p (j + 1) - 1) = 2 ^ j * (2 * (squeezed prod p (j + 1) - 1)) := by ring
        _ ≤ 2 ^ j * (squeezed prod p j - 1) := mul_le_mul_of_nonneg_left h3 (by positivity)
        _ ≤ _ := ih

/-- **C146.** With deviates of at least 1/2 no trial ends in less than 31 steps. -/
theorem C146_high_steps (prod : Int → Nat → ℚ) (h : ∀ (k : ℤ) p, 1 ≤ k → (k : ℚ) / 2 ≤ prod k p) (p j : Nat) (hj : SqueezeTrial prod p j) : 31 ≤ j := by
  by_contra hc
  have h1 := hj.2.2 (by omega)
  have h2 := squeezed_high prod h p j
  rw [h1, mul_one] at h2
  have : (2 : ℤ) ^ j ≤ 2 ^ 30 := pow_le_pow_right₀ (by norm_num) (by omega)
  norm_num at this
  omega

/-- **C146.** With deviates of at most 1/2 every trial ends in at most 31 steps, or not before step 48 (if a deviate is 0). -/
theorem C146_low_steps (prod : Int → Nat → ℚ) (hp : ∀ k p, 0 ≤ k → 0 ≤ prod k p ∧ prod k p ≤ k) (h : ∀ k p, 1 ≤ k → prod k p ≤ (k : ℚ) / 2) (p j : Nat)
    (hj : SqueezeTrial prod p j) : j ≤ 31 ∨ j = 48 := by
  by_contra hc
  have hle := hj.1
  have h31 : squeezed prod p 31 ≤ 1 := by
    have := squeezed_low prod hp h p 31
    norm_num at this
    omega
  have h0 : squeezed prod p 31 = 0 := by
    have := hj.2.1 31 (by omega)
    have := (squeezed_range prod hp p 31).1
    omega
  have hz : ∀ i, squeezed prod p (31 + i) = 0 := by
    intro i
    induction i with
    | zero => exact h0
    | succ i ih =>
      have h2 := (hp 0 (p + (31 + i)) le_rfl).2
      have h3 : squeezed prod p (31 + (i + 1)) ≤ 0 := by
        rw [← add_assoc, squeezed, ih]
        exact Int.ceil_le.2 h2
      have := (squeezed_range prod hp p (31 + (i + 1))).1
      omega
  have h1 := hj.2.2 (by omega)
  have := hz (j - 31)
  rw [show 31 + (j - 31) = j by omega] at this
  omega

/-- **C146.** A stuck first bit: a generator all of whose deviates in a sample are at least 1/2, or all at most 1/2, fails diehard_squeeze with 6000 trials or
more per sample (the default is 100000). -/
theorem C146_stuck (prod : Nat → Int → Nat → ℚ) (hp : ∀ i k p, 0 ≤ k → 0 ≤ prod i k p ∧ prod i k p ≤ k)
    (h : ∀ i, (∀ (k : ℤ) p, 1 ≤ k → (k : ℚ) / 2 ≤ prod i k p) ∨ ∀ k p, 1 ≤ k → prod i k p ≤ (k : ℚ) / 2) (n : Nat) (hn : 6000 ≤ n) (m : Nat) :
    ∃ w : Nat → Vtest, (∀ i, squeezeTest (prod i) n = .ok (w i)) ∧ FailsLow ((List.range m).map fun i => vtestPvalue gammaTail (w i)) := by
  have hnq : (6000 : ℚ) ≤ n := by exact_mod_cast hn
  have hex : ∀ i, ∃ w, squeezeTest (prod i) n = .ok w ∧ 0 ≤ vtestPvalue gammaTail w ∧ vtestPvalue gammaTail w ≤ 0.0004 := fun i => by
    rcases h i with h | h
    · refine C146_missing (prod i) (hp i) n hn 16 (by norm_num) (by norm_num) ?_ fun p hj => ?_
      · have : sqHyp 16 = 8206755 / 100000000 := rfl
        rw [this]
        linarith
      · have := C146_high_steps (prod i) h p _ hj
        omega
    · refine C146_missing (prod i) (hp i) n hn 26 (by norm_num) (by norm_num) ?_ fun p hj => ?_
      · have : sqHyp 26 = 1538652 / 100000000 := rfl
        rw [this]
        linarith
      · have := C146_low_steps (prod i) (hp i) h p _ hj
        omega
  choose w h1 h2 using hex
  refine ⟨w, h1, C137_low _ fun q hq => ?_⟩
  obtain ⟨i, -, rfl⟩ := List.mem_map.1 hq
  exact h2 i

/-- Deviates of exactly 3/4 and 1/4 in turn from sample to sample, default numbers. -/
example : ∃ w : Nat → Vtest, (∀ i, squeezeTest (fun k _ => (k : ℚ) * (if i % 2 = 0 then 3 / 4 else 1 / 4)) 100000 = .ok (w i)) ∧
    FailsLow ((List.range 100).map fun i => vtestPvalue gammaTail (w i)) := by
  refine C146_stuck (fun i k _ => (k : ℚ) * (if i % 2 = 0 then 3 / 4 else 1 / 4)) (fun i k p hk => ?_) (fun i => ?_) 100000 (by norm_num) 100
  · have : (0 : ℚ) ≤ k := by exact_mod_cast hk
    split <;> constructor <;> linarith
  · by_cases hi : i % 2 = 0
    · left
      intro k p hk
      have : (1 : ℚ) ≤ k := by exact_mod_cast hk
      simp only [hi, if_true]
      linarith
    · right
      intro k p hk
      have : (1 : ℚ) ≤ k := by exact_mod_cast hk
      simp only [hi, if_false]
      linarith

end Dh
