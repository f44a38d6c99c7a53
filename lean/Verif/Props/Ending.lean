import Verif.Props.Craps
import Verif.Props.SmallTests
import Mathlib.Data.Nat.Nth
/-
C123: when the two tests with loops of no fixed length come to an end.
-/
namespace Dh
open Spec

namespace Spec

/-- What `roll()` (diehard_craps.c:30-33) returns from a sequence of words in `0 … range`: `gsl_rng_uniform_int` takes the words whose quotient by
`range / 6` is less than 6, and leaves out the others. -/
noncomputable def dice (range : Nat) (w : Nat → Nat) (k : Nat) : Nat := 1 + w (Nat.nth (fun i => w i / (range / 6) < 6) k) / (range / 6)

end Spec

theorem crapsPoint_ends (d : Nat → Nat) (point : Nat) : ∀ (fuel tries pos j : Nat), j < fuel →
    (d (pos + 2 * j) + d (pos + 2 * j + 1) = 7 ∨ d (pos + 2 * j) + d (pos + 2 * j + 1) = point) → tries ≤ 20 →
    ∃ t won q, crapsPoint d point fuel tries pos = .ok (t, won, q) ∧ t ≤ 20
  | 0, _, _, _, h, _, _ => absurd h (Nat.not_lt_zero _)
  | fuel + 1, tries, pos, j, hj, h, ht => by
    have h20 : (if tries < 20 then tries + 1 else tries) ≤ 20 := by split <;> omega
    rw [crapsPoint]
    by_cases h7 : d pos + d (pos + 1) = 7
    · rw [if_pos h7]; exact ⟨_, _, _, rfl, h20⟩
    rw [if_neg h7]
    by_cases hp : d pos + d (pos + 1) = point
    · rw [if_pos hp]; exact ⟨_, _, _, rfl, h20⟩
    rw [if_neg hp]
    cases j with
    | zero => rw [Nat.mul_zero, Nat.add_zero] at h; exact absurd h (not_or.2 ⟨h7, hp⟩)
    | succ j =>
      refine crapsPoint_ends d point fuel _ (pos + 2) j (by omega) ?_ h20
      rw [show pos + 2 + 2 * j = pos + 2 * (j + 1) by omega]
      exact h

theorem crapsPoint_loops (d : Nat → Nat) (point : Nat) : ∀ (fuel tries pos : Nat),
    (∀ j, d (pos + 2 * j) + d (pos + 2 * j + 1) ≠ 7 ∧ d (pos + 2 * j) + d (pos + 2 * j + 1) ≠ point) → crapsPoint d point fuel tries pos = .loop
  | 0, _, _, _ => rfl
  | fuel + 1, tries, pos, h => by
    have h0 := h 0
    rw [Nat.mul_zero, Nat.add_zero] at h0
    rw [crapsPoint]
    rw [if_neg h0.1, if_neg h0.2]
    refine crapsPoint_loops d point fuel _ (pos + 2) fun j => ?_
    rw [show pos + 2 + 2 * j = pos + 2 * (j + 1) by omega]
    exact h (j + 1)

/-- C123: a game goes on for ever exactly if the first throw is a point and neither a 7 nor the point follows. -/
theorem C123_game (d : Nat → Nat) (pos : Nat) : (∀ fuel, crapsGame d fuel pos = .loop) ↔
    firstThrow (d pos + d (pos + 1)) = none ∧
      ∀ j, laterThrow (d pos + d (pos + 1)) (d (pos + 2 + 2 * j) + d (pos + 2 + 2 * j + 1)) = none := by
  have later : ∀ p s, laterThrow p s = none ↔ s ≠ 7 ∧ s ≠ p := by
    intro p s
    rw [laterThrow]
    by_cases h7 : s = 7
    · simp [h7]
    · by_cases hp : s = p
      · rw [if_neg h7, if_pos hp]; simp [hp]
      · simp [h7, hp]
  simp only [crapsGame, firstThrow, later]
  by_cases h1 : d pos + d (pos + 1) = 7 ∨ d pos + d (pos + 1) = 11
  · simp [h1]
  · by_cases h2 : d pos + d (pos + 1) = 2 ∨ d pos + d (pos + 1) = 3 ∨ d pos + d (pos + 1) = 12
    · simp [h1, h2]
    · simp only [if_neg h1, if_neg h2, true_and]
      constructor
      · intro h j
        by_contra hc
        obtain ⟨t, won, q, e, -⟩ := crapsPoint_ends d (d pos + d (pos + 1)) (j + 1) 0 (pos + 2) j (by omega) (by tauto) (by omega)
        rw [h] at e
        exact absurd e (by simp)
      · intro h fuel
        exact crapsPoint_loops d _ fuel 0 (pos + 2) h

/-- C123: if the dice repeat themselves with some period, from the beginning, then all games end, since the throw that made the point comes again. -/
theorem C123_craps (d : Nat → Nat) (P : Nat) (hP : 0 < P) (h : ∀ i, d (i + P) = d i) (n : Nat) : ∃ wins x, craps d P n = .ok (wins, x) ∧ x.length = 21 := by
  have h2 : ∀ i m, d (i + m * P) = d i := by
    intro i m
    induction m with
    | zero => simp
    | succ m ih => rw [Nat.succ_mul, ← Nat.add_assoc, h, ih]
  have game : ∀ pos, ∃ t won q, crapsGame d P pos = .ok (t, won, q) ∧ t ≤ 20 := by
    intro pos
    rw [crapsGame]
    by_cases h1 : d pos + d (pos + 1) = 7 ∨ d pos + d (pos + 1) = 11
    · rw [if_pos h1]; exact ⟨_, _, _, rfl, by omega⟩
    rw [if_neg h1]
    by_cases h3 : d pos + d (pos + 1) = 2 ∨ d pos + d (pos + 1) = 3 ∨ d pos + d (pos + 1) = 12
    · rw [if_pos h3]; exact ⟨_, _, _, rfl, by omega⟩
    rw [if_neg h3]
    refine crapsPoint_ends d _ P 0 (pos + 2) (P - 1) (by omega) (Or.inr ?_) (by omega)
    rw [show pos + 2 + 2 * (P - 1) = pos + 2 * P by omega, show pos + 2 * P + 1 = pos + 1 + 2 * P by omega, h2, h2]
  have loop : ∀ (todo pos wins : Nat) (x : List Nat), x.length = 21 → ∃ wins' x', crapsLoop d P todo pos wins x = .ok (wins', x') ∧ x'.length = 21 := by
    intro todo
    induction todo with
    | zero => intro pos wins x hx; exact ⟨wins, x, rfl, hx⟩
    | succ todo ih =>
      intro pos wins x hx
      obtain ⟨t, won, q, e, ht⟩ := game pos
      obtain ⟨x1, e1, t1⟩ := (Tallied.nil x).bump (i := t) (by omega)
      rw [crapsLoop, e, Res.bind_ok]
      simp only
      rw [e1, Res.bind_ok]
      exact ih q _ x1 (by rw [t1.len, hx])
  exact loop n 0 0 _ (by simp)

/-- C123: for words that repeat themselves the dice do so too, unless all words are left out. -/
theorem C123_words (range : Nat) (w : Nat → Nat) (P : Nat) (h : ∀ i, w (i + P) = w i) (hacc : ∃ i < P, w i / (range / 6) < 6) (n : Nat) :
    ∃ fuel wins x, craps (dice range w) fuel n = .ok (wins, x) ∧ x.length = 21 := by
  classical
  set p : Nat → Prop := fun i => w i / (range / 6) < 6 with hp
  have hper : ∀ i, p (i + P) ↔ p i := fun i => by rw [hp]; simp only [h]
  obtain ⟨i0, hi0, hpi⟩ := hacc
  have hcount : ∀ m, Nat.count p (P + m) = Nat.count p P + Nat.count p m := by
    intro m
    rw [Nat.count_add]
    congr 1
    congr 1
    funext k
    rw [Nat.add_comm P k]
    exact propext (hper k)
  have hm : 0 < Nat.count p P := by
    have := Nat.count_strict_mono (p := p) (m := i0) (n := P) hpi hi0
    omega
  have hinf : (Set.ofPred p).Infinite := by
    intro hfin
    have hall : ∀ m, p (i0 + m * P) := by
      intro m
      induction m with
      | zero => simpa using hpi
      | succ m ih => rw [Nat.succ_mul, ← Nat.add_assoc]; exact (hper _).2 ih
    have hP : 0 < P := by omega
    refine Set.infinite_of_injective_forall_mem (f := fun m => i0 + m * P) ?_ hall hfin
    intro a b hab
    exact Nat.eq_of_mul_eq_mul_right hP (by simpa using hab)
  have hnth : ∀ k, Nat.nth p (k + Nat.count p P) = P + Nat.nth p k := by
    intro k
    have h1 : p (P + Nat.nth p k) := by rw [Nat.add_comm]; exact (hper _).2 (Nat.nth_mem_of_infinite hinf k)
    have h2 := Nat.nth_count h1
    rw [hcount, Nat.count_nth_of_infinite hinf, Nat.add_comm] at h2
    exact h2
  obtain ⟨wins, x, e, hx⟩ := C123_craps (dice range w) (Nat.count p P) hm (fun k => by
    rw [dice, dice]
    show 1 + w (Nat.nth p (k + Nat.count p P)) / _ = 1 + w (Nat.nth p k) / _
    rw [hnth, Nat.add_comm P, h]) n
  exact ⟨_, wins, x, e, hx⟩

/-- C123: a sequence of dice that repeats itself, but not from the beginning, need not let the first game end: 2 and 2, then 2 and 3 for ever. -/
theorem C123_late : ∃ d : Nat → Nat, (∀ i, 1 ≤ d i ∧ d i ≤ 6) ∧ (∀ i, 1 ≤ i → d (i + 2) = d i) ∧ ∀ fuel n, 0 < n → craps d fuel n = .loop := by
  refine ⟨fun i => if i = 0 then 2 else if i % 2 = 0 then 3 else 2, fun i => ?_, fun i hi => ?_, fun fuel n hn => ?_⟩
  · dsimp only; split <;> [omega; split <;> omega]
  · dsimp only
    rw [if_neg (by omega), if_neg (show i ≠ 0 by omega), Nat.add_mod_right]
  · have hg := (C123_game (fun i => if i = 0 then 2 else if i % 2 = 0 then 3 else 2) 0).2 ⟨by decide, fun j => by
      have e1 : (0 + 2 + 2 * j) % 2 = 0 := by omega
      have e2 : (0 + 2 + 2 * j + 1) % 2 = 1 := by omega
      have e3 : 0 + 2 + 2 * j ≠ 0 := by omega
      have e4 : 0 + 2 + 2 * j + 1 ≠ 0 := by omega
      simp only [e1, e2, e3, e4, if_false, if_true]
      decide⟩ fuel
    rw [craps, show n = n - 1 + 1 by omega, crapsLoop, hg]
    rfl

/-- C123: for words that repeat themselves the gcd test ends, with any limit from the period on, unless all words are zero. -/
theorem C123_gcd (size : Nat → Nat) (malloc0 : Bool) (w : Src) (P : Nat) (hP : 0 < P) (h : ∀ i, w (i + P) = w i) (st : GcdStatics) (n : Nat) (hn : 0 < n)
    (hst : st.Good) (hsize : malloc0 = true ∨ 0 < size n) (h32 : size n < 2 ^ 32 ∧ st.gtblsize < 2 ^ 32) :
    (∀ fuel, gcdTest size malloc0 fuel w st n = .loop) ↔ ∀ i < P, w i = 0 := by
  have hmod : ∀ i, w i = w (i % P) := by
    intro i
    conv_lhs => rw [← Nat.mod_add_div i P]
    generalize i / P = m
    induction m with
    | zero => simp
    | succ m ih => rw [Nat.mul_succ, ← Nat.add_assoc, h, ih]
  constructor
  · intro hl i hi
    by_contra hne
    obtain ⟨st', g, kt, pos, gs, ds, e, -⟩ := C34_gcd_test size malloc0 P w st n hst hsize h32 (fun p => by
      refine ⟨p + (P - p % P + i) % P, by omega, ?_, ?_⟩
      · have := Nat.mod_lt (P - p % P + i) hP
        omega
      · have hm := Nat.mod_lt p hP
        have e : (p + (P - p % P + i) % P) % P = i := by
          rw [Nat.add_mod_mod]
          have e2 : p + (P - p % P + i) = i + P * (p / P + 1) := by
            have := Nat.mod_add_div p P
            rw [Nat.mul_succ]
            omega
          rw [e2, Nat.add_mul_mod_self_left, Nat.mod_eq_of_lt hi]
        rw [hmod, e]
        exact hne)
    rw [hl P] at e
    exact absurd e (by simp)
  · intro hz fuel
    have hw : w = fun _ => 0 := funext fun i => by rw [hmod]; exact hz _ (Nat.mod_lt _ hP)
    rw [hw]
    exact C34_zeros_loop size malloc0 fuel st n hn hst hsize

/-- Dice 2, 2, 3, 3, again and again: the first game has the point 4, then 6, and 4 wins; the second one has 6 and the third throw wins. -/
example : craps (fun i => if i % 4 < 2 then 2 else 3) 4 2 = .ok (2, [0, 0, 2] ++ List.replicate 18 0) := by decide +kernel

example : ∃ fuel wins x, craps (dice 4294967295 fun i => if i % 3 = 0 then 4294967295 else 1431655765 * (i % 3)) fuel 100000 = .ok (wins, x) ∧ x.length = 21 :=
  C123_words _ _ 3 (fun i => by rw [Nat.add_mod_right]) ⟨1, by norm_num, by norm_num⟩ _

end Dh
