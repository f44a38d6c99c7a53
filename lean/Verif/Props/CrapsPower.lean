import Verif.Props.CrapsMean
import Verif.Props.OrderPower
import Verif.Props.RunsPower
/-
C145: what diehard_craps always finds.
-/
namespace Dh

open Spec

/-- The two statistics of the test on dice that give the games `gs` (the number of throws and the result of each). -/
theorem craps_eval (cdf : ℝ → ℝ → ℝ) (d : Nat → Nat) (fuel : Nat) (gs : List (Nat × Bool)) (h : GamesAre d 0 gs) (hf : ∀ g ∈ gs, g.1 ≤ fuel)
    (hn : 9425 ≤ gs.length) : ∃ v, crapsTest cdf d fuel gs.length =
      .ok (xtestEval cdf (gs.countP (·.2) : ℕ) (gs.length * crapsP) (Real.sqrt (gs.length * crapsP * (1 - crapsP))), v) ∧ v.ndof = 20 ∧
      ∀ c < 20, ((gs.countP (fun g => decide (g.1 = c + 1)) : ℕ) - gs.length * crapsY c) ^ 2 / (gs.length * crapsY c) ≤ v.chisq := by
  obtain ⟨x, e1, e2, -, e3, -⟩ := C35_tally d fuel gs h hf
  have hb : ∀ c < 21, (5 : ℚ) ≤ gs.length * crapsY c := fun c hc => by
    have h1 := crapsY_bound c hc
    have h2 : (9425 : ℚ) ≤ gs.length := by exact_mod_cast hn
    nlinarith
  obtain ⟨w, h1, h2, -, h3, -⟩ := C16_vtest_eval { vtestCreate 21 with
      cutoff := 5
      x := x.map (Nat.cast : Nat → ℚ)
      y := (List.range 21).map fun c => (gs.length : ℚ) * crapsY c } (by simp [vtestCreate, e2]) (by simp [vtestCreate]) (by norm_num)
  have hu : usedCells 5 ((x.map (Nat.cast : Nat → ℚ)).zip ((List.range 21).map fun c => (gs.length : ℚ) * crapsY c)) =
      (x.map (Nat.cast : Nat → ℚ)).zip ((List.range 21).map fun c => (gs.length : ℚ) * crapsY c) := by
    refine usedCells_large _ fun c hc => ?_
    have := (List.of_mem_zip hc).2
    obtain ⟨k, hk, e⟩ := List.mem_map.1 this
    rw [← e]
    exact hb k (List.mem_range.1 hk)
  refine ⟨w, ?_, ?_, fun c hc => ?_⟩
  · rw [crapsTest, crapsExpected_eq, Res.bind_ok, e1, Res.bind_ok]
    simp only
    rw [h1, Res.bind_ok]
  · rw [h3 rfl]
    simp only
    rw [hu]
    simp [e2]
  · rw [h2]
    simp only
    rw [hu, ← e3 c hc]
    refine pearson_sum_ge _ (fun q hq => ?_) ((x.getD c 0 : ℚ), (gs.length : ℚ) * crapsY c) ?_
    · have := (List.of_mem_zip hq).2
      obtain ⟨k, hk, e⟩ := List.mem_map.1 this
      rw [← e]
      exact lt_of_lt_of_le (by norm_num) (hb k (List.mem_range.1 hk))
    · refine List.mem_iff_getElem.2 ⟨c, by simp [e2]; omega, ?_⟩
      rw [List.getElem_zip, List.getElem_map, List.getElem_map, List.getElem_range, List.getD_eq_getElem _ _ (by omega)]

/-- **C145.** Wins: a number of wins that is off by `2 √n` or more gives a p-value of at most 0.0004, or of at least 0.9996. -/
theorem C145_wins (d : Nat → Nat) (fuel : Nat) (gs : List (Nat × Bool)) (h : GamesAre d 0 gs) (hf : ∀ g ∈ gs, g.1 ≤ fuel) (hn : 9425 ≤ gs.length) :
    ∃ p v, crapsTest normalCdf d fuel gs.length = .ok (p, v) ∧
      ((gs.length : ℝ) * (244 / 495) + 2 * Real.sqrt gs.length ≤ (gs.countP (·.2) : ℕ) → 0 ≤ p ∧ p ≤ 0.0004) ∧
      ((gs.countP (·.2) : ℕ) ≤ (gs.length : ℝ) * (244 / 495) - 2 * Real.sqrt gs.length → 0.9996 ≤ p ∧ p ≤ 1) := by
  obtain ⟨v, h1, -⟩ := craps_eval normalCdf d fuel gs h hf hn
  refine ⟨_, v, h1, ?_⟩
  have hp : ((crapsP : ℚ) : ℝ) = 244 / 495 := by norm_num [crapsP]
  rw [hp]
  have hn0 : (0 : ℝ) < gs.length := by exact_mod_cast (by omega : 0 < gs.length)
  have hs0 : 0 < Real.sqrt (gs.length * (244 / 495) * (1 - 244 / 495)) := Real.sqrt_pos.2 (by positivity)
  have hs : 4 * Real.sqrt (gs.length * (244 / 495) * (1 - 244 / 495)) ≤ 2 * Real.sqrt gs.length := by
    have : Real.sqrt (gs.length * (244 / 495) * (1 - 244 / 495)) ≤ Real.sqrt (gs.length * (1 / 2) ^ 2) := Real.sqrt_le_sqrt (by nlinarith)
    rw [Real.sqrt_mul hn0.le, Real.sqrt_sq (by norm_num)] at this
    linarith
  have hx := xtest_four (gs.countP (·.2) : ℕ) (gs.length * (244 / 495)) _ hs0
  exact ⟨fun hw => hx.1 (by linarith), fun hw => hx.2 (by linarith)⟩

/-- **C145.** Throws: if the number of games with `c + 1` throws is so far from its expectation `y` that its square is at least `60 y`, the p-value is at
most 0.0004. -/
theorem C145_throws (d : Nat → Nat) (fuel : Nat) (gs : List (Nat × Bool)) (h : GamesAre d 0 gs) (hf : ∀ g ∈ gs, g.1 ≤ fuel) (hn : 9425 ≤ gs.length)
    (c : Nat) (hc : c < 20)
    (hfar : 60 * (gs.length * (gameProb true (c + 1) + gameProb false (c + 1))) ≤
      ((gs.countP (fun g => decide (g.1 = c + 1)) : ℕ) - gs.length * (gameProb true (c + 1) + gameProb false (c + 1))) ^ 2) :
    ∃ p v, crapsTest normalCdf d fuel gs.length = .ok (p, v) ∧ 0 ≤ vtestPvalue gammaTail v ∧ vtestPvalue gammaTail v ≤ 0.0004 := by
  obtain ⟨v, h1, h2, h3⟩ := craps_eval normalCdf d fuel gs h hf hn
  refine ⟨_, v, h1, ?_⟩
  have hy : (0 : ℚ) < gs.length * crapsY c := by
    have h1 := crapsY_bound c (by omega)
    have h2 : (9425 : ℚ) ≤ gs.length := by exact_mod_cast hn
    nlinarith
  rw [← C35_classes c hc] at hfar
  have h4 : (60 : ℚ) ≤ v.chisq := le_trans (by rw [le_div_iff₀ hy]; exact hfar) (h3 c hc)
  refine vtestPvalue_low v (by omega) 60 (by norm_num) (by exact_mod_cast h4) ?_
  rw [h2]
  norm_num

/-- **C145.** A length of game that never occurs: with enough games to expect 60 of it, the p-value is at most 0.0004. -/
theorem C145_missing (d : Nat → Nat) (fuel : Nat) (gs : List (Nat × Bool)) (h : GamesAre d 0 gs) (hf : ∀ g ∈ gs, g.1 ≤ fuel) (hn : 9425 ≤ gs.length)
    (c : Nat) (hc : c < 20) (h60 : 60 ≤ gs.length * (gameProb true (c + 1) + gameProb false (c + 1))) (hno : ∀ g ∈ gs, g.1 ≠ c + 1) :
    ∃ p v, crapsTest normalCdf d fuel gs.length = .ok (p, v) ∧ 0 ≤ vtestPvalue gammaTail v ∧ vtestPvalue gammaTail v ≤ 0.0004 := by
  refine C145_throws d fuel gs h hf hn c hc ?_
  have e : gs.countP (fun g => decide (g.1 = c + 1)) = 0 := List.countP_eq_zero.2 fun g hg => by simpa using hno g hg
  rw [e]
  push_cast
  nlinarith

theorem laterThrows_even (point : Nat) : ∀ l : List Nat, (∀ s ∈ l, s % 2 = 0) → laterThrows point false l = false
  | [], _ => rfl
  | [s], h => by
    have := h s (by simp)
    rw [laterThrows, laterThrow, if_neg (by omega)]
    split <;> rfl
  | s :: t :: l, h => by
    rw [laterThrows, laterThrows_even point (t :: l) fun s hs => h s (List.mem_cons_of_mem _ hs), Bool.and_false]

/-- With dice of equal parity a game is lost in the first throw or not at all. -/
theorem games_even (d : Nat → Nat) (hd : ∀ i, d (2 * i) % 2 = d (2 * i + 1) % 2) : ∀ (gs : List (Nat × Bool)) (k : Nat), GamesAre d (2 * k) gs →
    ∀ g ∈ gs, g.2 = false → g.1 = 1
  | [], _, _, _, hg => by simp at hg
  | (n, w) :: gs, k, ⟨h1, h2⟩, g, hg => by
    rcases List.mem_cons.1 hg with rfl | hm
    · intro hw
      simp only at hw ⊢
      subst hw
      match n, h1 with
      | 0, h1 => simp [throwsFrom, isGame] at h1
      | 1, _ => rfl
      | n + 2, h1 =>
        rw [throwsFrom_succ, throwsFrom_succ, isGame, ← throwsFrom_succ, laterThrows_even, Bool.and_false] at h1
        · simp at h1
        · intro s hs
          rw [throwsFrom] at hs
          obtain ⟨j, -, rfl⟩ := List.mem_map.1 hs
          have := hd (k + 1 + j)
          rw [show 2 * k + 2 + 2 * j = 2 * (k + 1 + j) by ring]
          omega
    · exact games_even d hd gs (k + n) (by rw [mul_add]; exact h2) g hm

/-- **C145.** Dice of which the two of every throw are both even or both odd are found by one of the two p-values of every sample. -/
theorem C145_parity (d : Nat → Nat) (hd : ∀ i, d (2 * i) % 2 = d (2 * i + 1) % 2) (fuel : Nat) (gs : List (Nat × Bool)) (h : GamesAre d 0 gs)
    (hf : ∀ g ∈ gs, g.1 ≤ fuel) (hn : 9425 ≤ gs.length) :
    ∃ p v, crapsTest normalCdf d fuel gs.length = .ok (p, v) ∧
      ((0 ≤ p ∧ p ≤ 0.0004) ∨ (0 ≤ vtestPvalue gammaTail v ∧ vtestPvalue gammaTail v ≤ 0.0004)) := by
  have hc : gs.length ≤ gs.countP (·.2) + gs.countP (fun g => decide (g.1 = 0 + 1)) := by
    have h1 := List.length_eq_countP_add_countP (fun g : Nat × Bool => g.2) (l := gs)
    have h2 : gs.countP (fun g => decide ¬ (g.2 = true)) ≤ gs.countP (fun g => decide (g.1 = 0 + 1)) :=
      List.countP_mono_left fun g hg hp => by
        simp only [decide_eq_true_eq, Bool.not_eq_true] at hp ⊢
        exact games_even d hd gs 0 h g hg hp
    omega
  have hnr : (9425 : ℝ) ≤ gs.length := by exact_mod_cast hn
  obtain ⟨p, v, h1, h2, -⟩ := C145_wins d fuel gs h hf hn
  refine ⟨p, v, h1, ?_⟩
  by_cases hw : (gs.length : ℝ) * (244 / 495) + 2 * Real.sqrt gs.length ≤ (gs.countP (·.2) : ℕ)
  · exact .inl (h2 hw)
  · right
    have hsq : Real.sqrt gs.length ≤ gs.length / 97 := by
      rw [Real.sqrt_le_left (by positivity)]
      nlinarith
    have hx : (gs.length : ℝ) * (0.48) ≤ (gs.countP (fun g => decide (g.1 = 0 + 1)) : ℕ) := by
      have : (gs.length : ℝ) ≤ (gs.countP (·.2) : ℕ) + (gs.countP (fun g => decide (g.1 = 0 + 1)) : ℕ) := by exact_mod_cast hc
      linarith
    have hxq : (gs.length : ℚ) * 0.48 ≤ (gs.countP (fun g => decide (g.1 = 0 + 1)) : ℕ) := by
      have e : (((gs.length : ℚ) * 0.48 : ℚ) : ℝ) ≤ (((gs.countP (fun g => decide (g.1 = 0 + 1)) : ℕ) : ℚ) : ℝ) := by push_cast; linarith
      exact_mod_cast e
    have hnq : (9425 : ℚ) ≤ gs.length := by exact_mod_cast hn
    obtain ⟨p', v', a1, a2⟩ := C145_throws d fuel gs h hf hn 0 (by norm_num) (by
      rw [← C35_classes 0 (by norm_num), crapsY, if_pos (by norm_num), crapsYLow, if_pos rfl]
      generalize ((gs.countP (fun g => decide (g.1 = 0 + 1)) : ℕ) : ℚ) = X at hxq ⊢
      generalize (gs.length : ℚ) = N at *
      have h3 : N * 0.146 ≤ X - N * (1 / 3) := by linarith
      have h4 : (N * 0.146) ^ 2 ≤ (X - N * (1 / 3)) ^ 2 := pow_le_pow_left₀ (by positivity) h3 2
      nlinarith)
    rw [a1] at h1
    injection h1 with h1
    rw [← (Prod.mk.inj h1).2]
    exact a2

/-- **C145.** The whole test, with 130 psamples or more (-k 0 or 1): on dice of which the two of every throw have the same parity, the final p-value of the
wins or that of the throws is below 0.000001. -/
theorem C145_run (ds : Nat → Nat → Nat) (hd : ∀ j i, ds j (2 * i) % 2 = ds j (2 * i + 1) % 2) (fuel n : Nat) (hn : 9425 ≤ n) (gs : Nat → List (Nat × Bool))
    (h : ∀ j, GamesAre (ds j) 0 (gs j)) (hl : ∀ j, (gs j).length = n) (hf : ∀ j, ∀ g ∈ gs j, g.1 ≤ fuel) (m : Nat) (hm : 130 ≤ m) :
    ∃ (p : Nat → ℝ) (v : Nat → Vtest), (∀ j, crapsTest normalCdf (ds j) fuel n = .ok (p j, v j)) ∧
      ∀ ksTest, ksTest ≠ 2 → ∀ K : Nat → ℝ → ℝ, (∀ d, 0 ≤ d → ksFinish ksTest m d = .ok (K m d)) →
        (∃ q s, kstest K ((List.range m).map p) m = .ok (q, s) ∧ q < 1e-6) ∨
        ∃ q s, kstest K ((List.range m).map fun j => vtestPvalue gammaTail (v j)) m = .ok (q, s) ∧ q < 1e-6 := by
  have hex : ∀ j, ∃ pv : ℝ × Vtest, crapsTest normalCdf (ds j) fuel n = .ok pv ∧
      ((0 ≤ pv.1 ∧ pv.1 ≤ 0.0004) ∨ (0 ≤ vtestPvalue gammaTail pv.2 ∧ vtestPvalue gammaTail pv.2 ≤ 0.0004)) := fun j => by
    obtain ⟨p, v, h1, h2⟩ := C145_parity (ds j) (hd j) fuel (gs j) (h j) (hf j) (by rw [hl j]; exact hn)
    rw [hl j] at h1
    exact ⟨(p, v), h1, h2⟩
  choose pv h1 h2 using hex
  refine ⟨fun j => (pv j).1, fun j => (pv j).2, h1, fun ksTest hks K hK => ?_⟩
  have key : ∀ f : Nat → ℝ, m ≤ 2 * ((List.range m).map f).countP (fun x => decide (0 ≤ x ∧ x ≤ 0 + 0.0004)) →
      ∃ q s, kstest K ((List.range m).map f) m = .ok (q, s) ∧ q < 1e-6 := by
    intro f hk
    have hlen : ((List.range m).map f).length = m := by simp
    generalize hkk : ((List.range m).map f).countP (fun x => decide (0 ≤ x ∧ x ≤ 0 + 0.0004)) = k at hk
    have hm' : (130 : ℝ) ≤ m := by exact_mod_cast hm
    have hk' : (m : ℝ) ≤ 2 * k := by exact_mod_cast hk
    have hr : (0.4885 : ℝ) ≤ ((k : ℝ) - 1) / (m + 1) := by
      rw [le_div_iff₀ (by linarith)]
      linarith
    have hr2 : (0.4881 : ℝ) ^ 2 ≤ (((k : ℝ) - 1) / (m + 1) - 0.0004) ^ 2 := pow_le_pow_left₀ (by norm_num) (by linarith) 2
    have := C126_crowded ksTest hks K ((List.range m).map f) (by omega) (by rw [hlen]; exact hK) 0 0.0004 (by norm_num) k hkk.ge
      (by rw [hlen]; linarith) (by rw [hlen]; nlinarith)
    rwa [hlen] at this
  by_cases hw : m ≤ 2 * ((List.range m).map fun j => (pv j).1).countP (fun x => decide (0 ≤ x ∧ x ≤ 0 + 0.0004))
  · exact .inl (key _ hw)
  · refine .inr (key (fun j => vtestPvalue gammaTail (pv j).2) ?_)
    rw [List.countP_map] at hw ⊢
    have e := List.length_eq_countP_add_countP ((fun x : ℝ => decide (0 ≤ x ∧ x ≤ 0 + 0.0004)) ∘ fun j => (pv j).1) (l := List.range m)
    rw [List.length_range] at e
    have := List.countP_mono_left (l := List.range m)
      (p := fun j => decide ¬ (((fun x : ℝ => decide (0 ≤ x ∧ x ≤ 0 + 0.0004)) ∘ fun j => (pv j).1) j = true))
      (q := (fun x : ℝ => decide (0 ≤ x ∧ x ≤ 0 + 0.0004)) ∘ fun j => vtestPvalue gammaTail (pv j).2) fun j _ hj => by
        simp only [Function.comp, decide_eq_true_eq, zero_add] at hj ⊢
        exact (h2 j).resolve_left hj
    omega

theorem games_replicate (d : Nat → Nat) (n : Nat) (w : Bool) (h : ∀ pos, isGame w (throwsFrom d pos n) = true) : ∀ m pos, GamesAre d pos (List.replicate m (n, w))
  | 0, _ => trivial
  | m + 1, pos => ⟨h pos, games_replicate d n w h m _⟩

/-- Dice that always show 4: every game is won with the second throw. -/
example : GamesAre (fun _ => 4) 0 (List.replicate 200000 (2, true)) := games_replicate _ 2 true (fun _ => by rfl) _ _

/-- The test finds them (default of 200000 games): no game ends with the first throw. -/
example : ∃ p v, crapsTest normalCdf (fun _ => 4) 2 200000 = .ok (p, v) ∧ 0 ≤ vtestPvalue gammaTail v ∧ vtestPvalue gammaTail v ≤ 0.0004 := by
  have := C145_missing (fun _ => 4) 2 (List.replicate 200000 (2, true)) (games_replicate _ 2 true (fun _ => by rfl) _ _)
    (fun g hg => by rw [(List.mem_replicate.1 hg).2]) (by rw [List.length_replicate]; norm_num) 0 (by norm_num)
    (by rw [List.length_replicate, ← C35_classes 0 (by norm_num), crapsY, if_pos (by norm_num), crapsYLow, if_pos rfl]; norm_num)
    (fun g hg => by rw [(List.mem_replicate.1 hg).2]; norm_num)
  rwa [List.length_replicate] at this

end Dh
