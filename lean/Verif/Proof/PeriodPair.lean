import Mathlib.Data.ZMod.Units
import Mathlib.GroupTheory.OrderOfElement
import Verif.Proof.Mwc
/-
Least periods of sequences of pairs, of powers modulo a number and of the low halves of multiply-with-carry.
-/
namespace Dh
open Spec

variable {α β γ : Type*}

theorem leastPeriod_congr {s : Nat → α} {u : Nat → γ} {P : Nat} (hs : LeastPeriod s P) (h : ∀ m n, u m = u n ↔ s m = s n) : LeastPeriod u P :=
  ⟨hs.1, fun d => by rw [← hs.2 d]; exact forall_congr' fun n => h _ _⟩

theorem leastPeriod_const (c : α) : LeastPeriod (fun _ : Nat => c) 1 := ⟨Nat.one_pos, fun d => by simp⟩

/-- The periods of a sequence of pairs. -/
theorem leastPeriod_pair {s : Nat → α} {t : Nat → β} {u : Nat → γ} {P Q : Nat} (hs : LeastPeriod s P) (ht : LeastPeriod t Q)
    (h : ∀ m n, u m = u n ↔ s m = s n ∧ t m = t n) : LeastPeriod u (Nat.lcm P Q) := by
  refine ⟨Nat.lcm_pos hs.1 ht.1, fun d => ?_⟩
  rw [Nat.lcm_dvd_iff, ← hs.2 d, ← ht.2 d, ← forall_and]
  exact forall_congr' fun n => h _ _

/-- The exclusive or of two sequences with coprime periods. -/
theorem leastPeriod_xor {s t : Nat → UInt} {P Q : Nat} (hs : LeastPeriod s P) (ht : LeastPeriod t Q) (h : P.Coprime Q) :
    LeastPeriod (fun n => s n ^^^ t n) (P * Q) := by
  have hmul : ∀ {u : Nat → UInt} {d : Nat}, (∀ n, u (n + d) = u n) → ∀ k n, u (n + k * d) = u n := by
    intro u d hu k
    induction k with
    | zero => intro n; simp
    | succ k ih => intro n; rw [Nat.succ_mul, ← Nat.add_assoc, hu, ih]
  refine ⟨Nat.mul_pos hs.1 ht.1, fun d => ⟨fun hd => ?_, fun hd n => ?_⟩⟩
  · refine h.mul_dvd_of_dvd_of_dvd ?_ ?_
    · have h1 : ∀ n, s (n + Q * d) = s n := by
        intro n
        have e1 := hmul (u := fun n => s n ^^^ t n) hd Q n
        have e2 := (ht.2 (Q * d)).2 ⟨d, rfl⟩ n
        rw [e2] at e1
        exact BitVec.xor_left_inj (t n) |>.1 e1
      exact h.dvd_of_dvd_mul_left ((hs.2 _).1 h1)
    · have h1 : ∀ n, t (n + P * d) = t n := by
        intro n
        have e1 := hmul (u := fun n => s n ^^^ t n) hd P n
        have e2 := (hs.2 (P * d)).2 ⟨d, rfl⟩ n
        rw [e2] at e1
        exact BitVec.xor_right_inj (s n) |>.1 e1
      exact h.symm.dvd_of_dvd_mul_left ((ht.2 _).1 h1)
  · show s (n + d) ^^^ t (n + d) = s n ^^^ t n
    rw [(hs.2 d).2 (Nat.dvd_trans ⟨Q, rfl⟩ hd) n, (ht.2 d).2 (Nat.dvd_trans ⟨P, Nat.mul_comm P Q⟩ hd) n]

/-- The multiples of `a` by the powers of `g` modulo `m`. -/
theorem mul_period {m g a k : Nat} (hk : 0 < k) (hg : orderOf (g : ZMod m) = k) (ha : a.Coprime m) : LeastPeriod (fun n => g ^ n * a % m) k := by
  have hu : IsUnit (a : ZMod m) := (ZMod.isUnit_iff_coprime a m).2 ha
  have key : ∀ n d, g ^ (n + d) * a % m = g ^ n * a % m ↔ (g : ZMod m) ^ n * (g : ZMod m) ^ d = (g : ZMod m) ^ n := by
    intro n d
    have : (g ^ (n + d) * a % m = g ^ n * a % m) ↔ ((g ^ (n + d) * a : ℕ) : ZMod m) = ((g ^ n * a : ℕ) : ZMod m) := (ZMod.natCast_eq_natCast_iff' _ _ _).symm
    rw [this]
    push_cast
    rw [hu.mul_left_inj, pow_add]
  refine ⟨hk, fun d => ⟨fun hd => ?_, fun hd n => ?_⟩⟩
  · have := (key 0 d).1 (hd 0)
    rw [pow_zero, one_mul] at this
    rw [← hg]
    exact orderOf_dvd_of_pow_eq_one this
  · refine (key n d).2 ?_
    rw [← hg] at hd
    rw [orderOf_dvd_iff_pow_eq_one.1 hd, mul_one]

/-- The low halves of multiply-with-carry have the period of the states. -/
theorem mwc_low_period {a b q : Nat} (ha : 1 < a) (hb : 1 < b) (hab : a ≤ b) (hq : 0 < q) {s : Nat × Nat} (h : MwcGood a b s)
    (hp : Function.minimalPeriod (mwcStep a b) s = q) : LeastPeriod (fun n => ((mwcStep a b)^[n] s).1) q := by
  have hl := leastPeriod_iterate (mwcStep a b) s _ hq hp
  refine ⟨hq, fun d => ⟨fun hd => ?_, fun hd n => congrArg Prod.fst ((hl.2 d).2 hd n)⟩⟩
  rw [← hp, ← Function.isPeriodicPt_iff_minimalPeriod_dvd]
  show (mwcStep a b)^[d] s = s
  have e0 := hd 0
  have e1 := hd 1
  simp only at e0 e1
  rw [Nat.zero_add] at e0
  rw [Nat.add_comm 1 d, Function.iterate_succ_apply', Function.iterate_one] at e1
  have g := mwcGood_iterate ha hb h d
  generalize (mwcStep a b)^[d] s = t at e0 e1 g
  have e0' : t.1 = s.1 := e0
  have e1' : (a * t.1 + t.2) % b = (a * s.1 + s.2) % b := e1
  have g2 : t.2 < a := g.2.1
  have g3 : s.2 < a := h.2.1
  refine Prod.ext e0' ?_
  rw [e0'] at e1'
  have := Nat.ModEq.add_left_cancel' (a * s.1) e1'
  rw [Nat.ModEq, Nat.mod_eq_of_lt (by omega), Nat.mod_eq_of_lt (by omega)] at this
  exact this

end Dh
