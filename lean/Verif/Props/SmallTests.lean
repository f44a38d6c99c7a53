import Mathlib.Tactic.Linarith
import Mathlib.Tactic.Ring
import Mathlib.Data.Nat.Fib.Basic
import Mathlib.Data.List.GetD
import Verif.Model.SmallTests
import Verif.Proof.Tally
/-
C34 (gcd test), C37 (squeeze), C48 (persist), C56 (lagged sums).
-/
set_option linter.unusedSimpArgs false
namespace Dh
namespace Spec

/-- `r` is the sequence of remainders of Euclid's algorithm on `u`, `v`, and the `k`-th division is the
first one that leaves no remainder. -/
structure Divisions (u v k : Nat) (r : Nat → Nat) : Prop where
  first : r 0 = u
  second : r 1 = v
  division : ∀ i < k, ∃ q, r i = q * r (i + 1) + r (i + 2) ∧ r (i + 2) < r (i + 1)
  goes_on : ∀ i, 1 ≤ i → i ≤ k → r i ≠ 0
  ends : r (k + 1) = 0
  some_step : 1 ≤ k

end Spec
open Spec

theorem toNat_ne_zero {v : UInt} (h : v ≠ 0) : v.toNat ≠ 0 :=
  fun e => h (BitVec.eq_of_toNat_eq (by simpa using e))

theorem euclid_spec (n : Nat) : ∀ (u v : UInt) (k : Nat), v.toNat ≤ n → v ≠ 0 →
    ∃ g j r, euclid u v k = .ok (g, k + j) ∧ g.toNat = Nat.gcd u.toNat v.toNat ∧
      Divisions u.toNat v.toNat j r := by
  induction n with
  | zero => intro u v k h hv; exact absurd (by omega) (toNat_ne_zero hv)
  | succ n ih =>
    intro u v k h hv
    have hv0 := toNat_ne_zero hv
    have hmod : (u % v).toNat = u.toNat % v.toNat := BitVec.toNat_umod
    have hlt : u.toNat % v.toNat < v.toNat := Nat.mod_lt _ (by omega)
    have hdiv : u.toNat = u.toNat / v.toNat * v.toNat + u.toNat % v.toNat := by
      have := Nat.div_add_mod u.toNat v.toNat
      rw [Nat.mul_comm]; exact this.symm
    rw [euclid, dif_neg hv]
    simp only
    by_cases hw : u % v = 0
    · have hz : u.toNat % v.toNat = 0 := by rw [← hmod, hw]; rfl
      refine ⟨v, 1, fun i => if i = 0 then u.toNat else if i = 1 then v.toNat else 0, by rw [if_pos hw], ?_, rfl, rfl, ?_, ?_, rfl, by omega⟩
      · rw [Nat.gcd_comm, Nat.gcd_rec, hz, Nat.gcd_zero_left]
      · intro i hi
        have : i = 0 := by omega
        subst this
        exact ⟨u.toNat / v.toNat, by simp; rw [hz] at hdiv; omega, by simp; omega⟩
      · intro i h1 h2
        have : i = 1 := by omega
        subst this
        simpa using hv0
    · have hw0 := toNat_ne_zero hw
      obtain ⟨g, j, r, h1, h2, hr⟩ := ih v (u % v) (k + 1) (by rw [hmod]; omega) hw
      rw [if_neg hw]
      refine ⟨g, j + 1, fun i => if i = 0 then u.toNat else r (i - 1), ?_, ?_, rfl, by simpa using hr.first, ?_, ?_, ?_, by omega⟩
      · rw [h1]; congr 2; omega
      · rw [h2, hmod, Nat.gcd_comm, ← Nat.gcd_rec, Nat.gcd_comm]
      · intro i hi
        rcases Nat.eq_zero_or_pos i with rfl | hi0
        · refine ⟨u.toNat / v.toNat, ?_, ?_⟩
          · simp only [if_true, Nat.zero_add, one_ne_zero, if_false, OfNat.ofNat_ne_zero, Nat.sub_self, Nat.reduceSub]
            rw [hr.first, hr.second, hmod]; exact hdiv
          · simp only [if_true, Nat.zero_add, one_ne_zero, if_false, OfNat.ofNat_ne_zero, Nat.sub_self, Nat.reduceSub]
            rw [hr.first, hr.second, hmod]; exact hlt
        · obtain ⟨q, hq1, hq2⟩ := hr.division (i - 1) (by omega)
          refine ⟨q, ?_, ?_⟩
          · rw [if_neg (by omega), if_neg (by omega), if_neg (by omega), hq1]
            rw [show i + 1 - 1 = i - 1 + 1 from by omega, show i + 2 - 1 = i - 1 + 2 from by omega]
          · rw [if_neg (by omega), if_neg (by omega)]
            have e1 : i + 2 - 1 = i - 1 + 2 := by omega
            have e2 : i + 1 - 1 = i - 1 + 1 := by omega
            rw [e1, e2]; exact hq2
      · intro i h1 h2
        show (if i = 0 then u.toNat else r (i - 1)) ≠ 0
        rw [if_neg (by omega)]
        rcases Nat.eq_zero_or_pos (i - 1) with h0 | h0
        · rw [h0, hr.first]; exact hv0
        · exact hr.goes_on (i - 1) h0 (by omega)
      · show (if j + 1 + 1 = 0 then u.toNat else r (j + 1 + 1 - 1)) = 0
        rw [if_neg (by omega), Nat.add_sub_cancel]; exact hr.ends

/-- The number of divisions is determined by the two numbers. -/
theorem Divisions.unique {u v k r k' r'} (h : Divisions u v k r) (h' : Divisions u v k' r') : k = k' := by
  have step : ∀ i, i ≤ k → i ≤ k' → r i = r' i ∧ r (i + 1) = r' (i + 1) := by
    intro i
    induction i with
    | zero => intro _ _; exact ⟨by rw [h.first, h'.first], by rw [h.second, h'.second]⟩
    | succ i ih =>
      intro h1 h2
      obtain ⟨e1, e2⟩ := ih (by omega) (by omega)
      refine ⟨e2, ?_⟩
      obtain ⟨q, a1, a2⟩ := h.division i (by omega)
      obtain ⟨q', b1, b2⟩ := h'.division i (by omega)
      have e3 : r (i + 2) = r i % r (i + 1) := by
        rw [a1, Nat.mul_add_mod', Nat.mod_eq_of_lt a2]
      have e4 : r' (i + 2) = r' i % r' (i + 1) := by
        rw [b1, Nat.mul_add_mod', Nat.mod_eq_of_lt b2]
      show r (i + 2) = r' (i + 2)
      rw [e3, e4, e1, e2]
  rcases Nat.lt_trichotomy k k' with hlt | he | hlt
  · have := (step k (by omega) (by omega)).2
    rw [h.ends] at this
    exact absurd this.symm (h'.goes_on (k + 1) (by omega) (by omega))
  · exact he
  · have := (step k' (by omega) (by omega)).2
    rw [h'.ends] at this
    exact absurd this (h.goes_on (k' + 1) (by omega) (by omega))

/-- Lamé: `k` divisions need a divisor of at least the `(k+1)`-th Fibonacci number. -/
theorem Divisions.lame {u v k r} (h : Divisions u v k r) : Nat.fib (k + 1) ≤ v := by
  have key : ∀ j, j + 1 ≤ k → Nat.fib (j + 2) ≤ r (k - j) ∧ Nat.fib (j + 1) ≤ r (k - j) := by
    intro j
    induction j using Nat.strong_induction_on with
    | _ j ih =>
      intro hj
      have hmono : Nat.fib (j + 1) ≤ Nat.fib (j + 2) := Nat.fib_le_fib_succ
      have main : Nat.fib (j + 2) ≤ r (k - j) := by
        match j, ih, hj with
        | 0, _, hj =>
          have := h.goes_on k (by omega) le_rfl
          simp only [Nat.zero_add, Nat.sub_zero, Nat.fib_two]
          omega
        | 1, ih, hj =>
          have h0 := h.goes_on k (by omega) le_rfl
          obtain ⟨q, a, b⟩ := h.division (k - 2) (by omega)
          rw [show k - 2 + 2 = k from by omega, show k - 2 + 1 = k - 1 from by omega] at b
          show 2 ≤ r (k - 1)
          omega
        | j + 2, ih, hj =>
          have i1 := (ih (j + 1) (by omega) (by omega)).1
          have i0 := (ih j (by omega) (by omega)).1
          obtain ⟨q, a, b⟩ := h.division (k - (j + 2)) (by omega)
          rw [show k - (j + 2) + 1 = k - (j + 1) from by omega, show k - (j + 2) + 2 = k - j from by omega] at a b
          have hlt : r (k - (j + 1)) < r (k - (j + 2)) := by
            obtain ⟨q', a', b'⟩ := h.division (k - (j + 3)) (by omega)
            rw [show k - (j + 3) + 1 = k - (j + 2) from by omega, show k - (j + 3) + 2 = k - (j + 1) from by omega] at b'
            exact b'
          have hq : q ≠ 0 := by
            rintro rfl
            omega
          have : r (k - (j + 1)) ≤ q * r (k - (j + 1)) := Nat.le_mul_of_pos_left _ (Nat.pos_of_ne_zero hq)
          have hf : Nat.fib (j + 2 + 2) = Nat.fib (j + 2) + Nat.fib (j + 1 + 2) := Nat.fib_add_two
          omega
      exact ⟨main, by omega⟩
  have h1 := h.some_step
  have := (key (k - 1) (by omega)).1
  rw [show k - 1 + 2 = k + 1 from by omega, show k - (k - 1) = 1 from by omega, h.second] at this
  exact this

/-- **C34.** For nonzero numbers the loop ends with their greatest common divisor and the number of
divisions Euclid's algorithm makes, which is at most 46. -/
theorem C34_euclid (u v : UInt) (hv : v ≠ 0) :
    ∃ g k r, euclid u v 0 = .ok (g, k) ∧ g.toNat = Nat.gcd u.toNat v.toNat ∧
      Divisions u.toNat v.toNat k r ∧ k ≤ 46 := by
  obtain ⟨g, k, r, h1, h2, h3⟩ := euclid_spec _ u v 0 le_rfl hv
  rw [Nat.zero_add] at h1
  refine ⟨g, k, r, h1, h2, h3, ?_⟩
  by_contra hk
  have h4 := Divisions.lame h3
  have h5 : Nat.fib 48 ≤ Nat.fib (k + 1) := Nat.fib_mono (by omega)
  have h6 : Nat.fib 48 = 4807526976 := by decide +kernel
  have := v.isLt
  omega

example : euclid 2971215073 1836311903 0 = .ok (1, 45) := by decide +kernel
example : euclid 1836311903 2971215073 0 = .ok (1, 46) := by decide +kernel
example : euclid 360 84 0 = .ok (12, 3) := by decide +kernel

theorem drawNonzero_spec (w : Src) : ∀ (fuel pos : Nat) (x : UInt) (q : Nat),
    drawNonzero w fuel pos = .ok (x, q) →
    pos < q ∧ x ≠ 0 ∧ ((List.range' pos (q - pos)).map w).filter (· ≠ 0) = [x]
  | 0, pos, x, q, h => by simp [drawNonzero] at h
  | fuel + 1, pos, x, q, h => by
    rw [drawNonzero] at h
    by_cases hw : w pos = 0
    · rw [if_pos hw] at h
      obtain ⟨h1, h2, h3⟩ := drawNonzero_spec w fuel (pos + 1) x q h
      refine ⟨by omega, h2, ?_⟩
      rw [show q - pos = q - (pos + 1) + 1 from by omega, List.range'_succ, List.map_cons,
        List.filter_cons_of_neg (by simp [hw])]
      exact h3
    · rw [if_neg hw, Res.ok.injEq, Prod.mk.injEq] at h
      obtain ⟨rfl, rfl⟩ := h
      refine ⟨by omega, hw, ?_⟩
      rw [show pos + 1 - pos = 1 from by omega]
      rw [List.range'_one, List.map_singleton, List.filter_cons_of_pos (by simpa using hw)]; rfl

theorem drawNonzero_ok (w : Src) : ∀ (fuel pos : Nat), (∃ q, pos ≤ q ∧ q < pos + fuel ∧ w q ≠ 0) →
    ∃ r, drawNonzero w fuel pos = .ok r
  | 0, pos, ⟨q, h1, h2, h3⟩ => by omega
  | fuel + 1, pos, ⟨q, h1, h2, h3⟩ => by
    rw [drawNonzero]
    by_cases hw : w pos = 0
    · rw [if_pos hw]
      refine drawNonzero_ok w fuel (pos + 1) ⟨q, ?_, by omega, h3⟩
      rcases Nat.lt_or_ge pos q with h | h
      · exact h
      · rw [show q = pos from by omega] at h3; exact absurd hw h3
    · exact ⟨_, by rw [if_neg hw]⟩

theorem drawNonzero_loop (w : Src) : ∀ (fuel pos : Nat), (∀ q, pos ≤ q → w q = 0) →
    drawNonzero w fuel pos = .loop
  | 0, pos, _ => rfl
  | fuel + 1, pos, h => by
    rw [drawNonzero, if_pos (h pos le_rfl)]
    exact drawNonzero_loop w fuel (pos + 1) (fun q hq => h q (by omega))

namespace Spec

/-- The pairs `nz`, one gcd and one number of divisions for each. -/
inductive GcdSamples : (nz : List UInt) → (gs ds : List Nat) → Prop
  | nil : GcdSamples [] [] []
  | snoc {nz gs ds u v d r} : GcdSamples nz gs ds → u ≠ 0 → v ≠ 0 → Divisions u.toNat v.toNat d r →
      GcdSamples (nz ++ [u, v]) (gs ++ [Nat.gcd u.toNat v.toNat]) (ds ++ [d])

end Spec

theorem GcdSamples.length {nz gs ds} (h : GcdSamples nz gs ds) : nz.length = 2 * gs.length ∧ ds.length = gs.length := by
  induction h with
  | nil => simp
  | snoc _ _ _ _ ih => simp [ih]; omega

/-- Every pair is there, in order. -/
theorem GcdSamples.get {nz gs ds} (h : GcdSamples nz gs ds) : ∀ t < gs.length,
    gs.getD t 0 = Nat.gcd (nz.getD (2 * t) 0).toNat (nz.getD (2 * t + 1) 0).toNat ∧
    ∃ r, Divisions (nz.getD (2 * t) 0).toNat (nz.getD (2 * t + 1) 0).toNat (ds.getD t 0) r := by
  induction h with
  | nil => intro t ht; simp at ht
  | @snoc nz gs ds u v d r hs hu hv hd ih =>
    intro t ht
    obtain ⟨l1, l2⟩ := GcdSamples.length hs
    rcases Nat.lt_or_ge t gs.length with h | h
    · obtain ⟨a, r', b⟩ := ih t h
      rw [List.getD_append _ _ _ _ h, List.getD_append _ _ _ _ (by omega), List.getD_append _ _ _ _ (by omega),
        List.getD_append _ _ _ _ (by omega)]
      exact ⟨a, r', b⟩
    · have : t = gs.length := by simp at ht; omega
      subst this
      rw [List.getD_append_right _ _ _ _ le_rfl, List.getD_append_right _ _ _ _ (by omega),
        List.getD_append_right _ _ _ _ (by omega), List.getD_append_right _ _ _ _ (by omega)]
      rw [show 2 * gs.length - nz.length = 0 from by omega, show 2 * gs.length + 1 - nz.length = 1 from by omega,
        show gs.length - ds.length = 0 from by omega, Nat.sub_self]
      exact ⟨rfl, r, hd⟩

theorem gcdLoop_spec (fuel : Nat) (w : Src) (G : Nat) (hG : G < 2 ^ 32) :
    ∀ (todo pos : Nat) (g kt : List Nat) (nz : List UInt) (gs ds : List Nat),
    nz = ((List.range pos).map w).filter (· ≠ 0) → GcdSamples nz gs ds →
    Tallied (List.replicate G 0) (if G = 0 then [] else gs.map (min · (G - 1))) g →
    Tallied (List.replicate 41 0) (ds.map (min · 40)) kt →
    gcdLoop fuel w G todo pos g kt = .loop ∨
    ∃ g' kt' pos' nz' gs' ds', gcdLoop fuel w G todo pos g kt = .ok (g', kt', pos') ∧
      nz' = ((List.range pos').map w).filter (· ≠ 0) ∧ GcdSamples nz' gs' ds' ∧
      gs'.length = gs.length + todo ∧
      Tallied (List.replicate G 0) (if G = 0 then [] else gs'.map (min · (G - 1))) g' ∧
      Tallied (List.replicate 41 0) (ds'.map (min · 40)) kt'
  | 0, pos, g, kt, nz, gs, ds, hnz, hs, tg, tk => Or.inr ⟨g, kt, pos, nz, gs, ds, rfl, hnz, hs, rfl, tg, tk⟩
  | todo + 1, pos, g, kt, nz, gs, ds, hnz, hs, tg, tk => by
    have draw : ∀ pos, drawNonzero w fuel pos = .loop ∨ ∃ x q, drawNonzero w fuel pos = .ok (x, q) := by
      intro pos
      induction fuel generalizing pos with
      | zero => left; rfl
      | succ n ih =>
        rw [drawNonzero]
        split
        · exact ih _
        · exact Or.inr ⟨_, _, rfl⟩
    rcases draw pos with h1 | ⟨u, p1, h1⟩
    · left; rw [gcdLoop, h1]; rfl
    rcases draw p1 with h2 | ⟨v, p2, h2⟩
    · left; rw [gcdLoop, h1, Res.bind_ok]; simp only [h2]; rfl
    obtain ⟨a1, a2, a3⟩ := drawNonzero_spec w fuel pos u p1 h1
    obtain ⟨b1, b2, b3⟩ := drawNonzero_spec w fuel p1 v p2 h2
    obtain ⟨gg, k, r, e1, e2, e3, _⟩ := C34_euclid u v b2
    have hg0 : gg.toNat ≠ 0 := by
      rw [e2]
      intro h0
      exact toNat_ne_zero b2 (Nat.eq_zero_of_gcd_eq_zero_right h0)
    have hnz' : nz ++ [u, v] = ((List.range p2).map w).filter (· ≠ 0) := by
      have r1 : List.range p2 = List.range pos ++ (List.range' pos (p1 - pos) ++ List.range' p1 (p2 - p1)) := by
        have q1 := List.range'_append_1 (s := pos) (m := p1 - pos) (n := p2 - p1)
        have q2 := List.range'_append_1 (s := 0) (m := pos) (n := p1 - pos + (p2 - p1))
        rw [show pos + (p1 - pos) = p1 from by omega] at q1
        rw [q1, List.range_eq_range', List.range_eq_range']
        rw [Nat.zero_add] at q2
        rw [q2]; congr 1; omega
      rw [r1, List.map_append, List.map_append, List.filter_append, List.filter_append, ← hnz, a3, b3]
      rfl
    have hs' := GcdSamples.snoc hs a2 b2 e3
    obtain ⟨kt1, hk1, tk1⟩ := tk.bump (i := min k 40) (by rw [List.length_replicate]; omega)
    have hkeq : (if k > ktblsize - 1 then ktblsize - 1 else k) = min k 40 := by
      rw [ktblsize]; split <;> omega
    have hgt : ∃ g1, (if (if gg.toNat ≥ G then (G + 2 ^ 32 - 1) % 2 ^ 32 else gg.toNat) < G then
          bump g (if gg.toNat ≥ G then (G + 2 ^ 32 - 1) % 2 ^ 32 else gg.toNat) else .ok g) = .ok g1 ∧
        Tallied (List.replicate G 0) (if G = 0 then [] else
          (gs ++ [Nat.gcd u.toNat v.toNat]).map (min · (G - 1))) g1 := by
      by_cases hG0 : G = 0
      · subst hG0
        rw [if_pos (Nat.zero_le _), if_neg (by omega)]
        exact ⟨g, rfl, by simpa using tg⟩
      · have hidx : (if gg.toNat ≥ G then (G + 2 ^ 32 - 1) % 2 ^ 32 else gg.toNat) = min gg.toNat (G - 1) := by
          split <;> omega
        rw [hidx, if_pos (by omega), if_neg hG0, List.map_append, ← e2]
        rw [if_neg hG0] at tg
        obtain ⟨g1, hg1, tg1⟩ := tg.bump (i := min gg.toNat (G - 1)) (by rw [List.length_replicate]; omega)
        exact ⟨g1, hg1, tg1⟩
    obtain ⟨g1, hg1, tg1⟩ := hgt
    have tk1' : Tallied (List.replicate 41 0) ((ds ++ [k]).map (min · 40)) kt1 := by
      rw [List.map_append]; exact tk1
    have hstep : gcdLoop fuel w G (todo + 1) pos g kt = gcdLoop fuel w G todo p2 g1 kt1 := by
      rw [gcdLoop, h1, Res.bind_ok]
      simp only [h2, Res.bind_ok, e1]
      rw [hg1, Res.bind_ok, hkeq, hk1, Res.bind_ok]
    rcases gcdLoop_spec fuel w G hG todo p2 g1 kt1 _ _ _ hnz' hs' tg1 tk1' with h | ⟨g', kt', pos', nz', gs', ds', c1, c2, c3, c4, c5, c6⟩
    · left; rw [hstep]; exact h
    · right
      refine ⟨g', kt', pos', nz', gs', ds', by rw [hstep]; exact c1, c2, c3, ?_, c5, c6⟩
      rw [c4, List.length_append, List.length_singleton]; omega

theorem gcdLoop_ok (fuel : Nat) (w : Src) (G : Nat) (hG : G < 2 ^ 32)
    (hw : ∀ p, ∃ q, p ≤ q ∧ q < p + fuel ∧ w q ≠ 0) :
    ∀ (todo pos : Nat) (g kt : List Nat), gcdLoop fuel w G todo pos g kt ≠ .loop
  | 0, pos, g, kt, h => by simp [gcdLoop] at h
  | todo + 1, pos, g, kt, h => by
    obtain ⟨⟨u, p1⟩, h1⟩ := drawNonzero_ok w fuel pos (hw pos)
    obtain ⟨⟨v, p2⟩, h2⟩ := drawNonzero_ok w fuel p1 (hw p1)
    obtain ⟨b1, b2, b3⟩ := drawNonzero_spec w fuel p1 v p2 h2
    obtain ⟨gg, k, r, e1, e2, e3, _⟩ := C34_euclid u v b2
    rw [gcdLoop, h1, Res.bind_ok] at h
    simp only [h2, Res.bind_ok, e1] at h
    have nl : ∀ (f : List Nat) (i : Nat), bump f i = .ub ∨ ∃ f', bump f i = .ok f' := by
      intro f i
      rcases Nat.lt_or_ge i f.length with hi | hi
      · exact Or.inr ⟨_, bump_ok hi⟩
      · exact Or.inl (bump_ub hi)
    generalize (if gg.toNat ≥ G then (G + 2 ^ 32 - 1) % 2 ^ 32 else gg.toNat) = i at h
    have key : ∀ g1, (do
        let ktbl ← bump kt (if k > ktblsize - 1 then ktblsize - 1 else k)
        gcdLoop fuel w G todo p2 g1 ktbl) ≠ .loop := by
      intro g1
      rcases nl kt (if k > ktblsize - 1 then ktblsize - 1 else k) with h' | ⟨f', h'⟩
      · rw [h']; simp
      · rw [h', Res.bind_ok]; exact gcdLoop_ok fuel w G hG hw todo p2 g1 f'
    split at h
    · rcases nl g i with h' | ⟨f', h'⟩
      · rw [h'] at h; simp at h
      · rw [h', Res.bind_ok] at h; exact key _ h
    · exact key _ h

/-- The statics between calls: no table yet, or a table of the recorded, nonzero size. -/
def GcdStatics.Good (st : GcdStatics) : Prop :=
  (st.alloc = none ∧ st.gtblsize = 0) ∨ (st.alloc = some st.gtblsize ∧ 0 < st.gtblsize)

theorem gcdSetup_good (size : Nat → Nat) (malloc0 : Bool) (st : GcdStatics) (n : Nat) (hst : st.Good)
    (h : malloc0 = true ∨ 0 < size n) :
    ∃ st', gcdSetup size malloc0 st n = .ok st' ∧ st'.Good ∧
      st'.gtblsize = (if st.gtblsize = 0 then size n else st.gtblsize) := by
  obtain ⟨alloc, g⟩ := st
  rcases hst with ⟨rfl, rfl⟩ | ⟨h1, h2⟩
  · simp only [gcdSetup, if_true]
    by_cases hs : size n = 0
    · have hm : malloc0 = true := by rcases h with h | h; exact h; omega
      have e : (if size n = 0 ∧ malloc0 = true then none else some (size n)) = none := if_pos ⟨hs, hm⟩
      simp only [e]
      rw [if_pos (by simp [hs])]
      exact ⟨_, rfl, Or.inl ⟨rfl, hs⟩, rfl⟩
    · have e : (if size n = 0 ∧ malloc0 = true then none else some (size n)) = some (size n) :=
        if_neg (fun h => hs h.1)
      simp only [e]
      rw [if_pos (by simp)]
      exact ⟨_, rfl, Or.inr ⟨rfl, by show 0 < size n; omega⟩, rfl⟩
  · simp only at h1 h2
    subst h1
    have hg : g ≠ 0 := by omega
    simp only [gcdSetup, if_neg hg, Option.getD_some, le_refl, if_true]
    exact ⟨_, rfl, Or.inr ⟨rfl, h2⟩, rfl⟩

/-- **C34.** The gcd test draws pairs of nonzero words (zeros are skipped), computes for each pair the
greatest common divisor and the number of divisions, and counts them in tables of `gtblsize` and 41 cells,
the last cell of each collecting everything larger; every index is inside its table.  It does not end
only if the generator runs into zeros for ever. -/
theorem C34_gcd_test (size : Nat → Nat) (malloc0 : Bool) (fuel : Nat) (w : Src) (st : GcdStatics) (n : Nat)
    (hst : st.Good) (hsize : malloc0 = true ∨ 0 < size n)
    (h32 : size n < 2 ^ 32 ∧ st.gtblsize < 2 ^ 32) (hw : ∀ p, ∃ q, p ≤ q ∧ q < p + fuel ∧ w q ≠ 0) :
    ∃ st' g kt pos gs ds, gcdTest size malloc0 fuel w st n = .ok (st', g, kt, pos) ∧ st'.Good ∧
      st'.gtblsize = (if st.gtblsize = 0 then size n else st.gtblsize) ∧
      GcdSamples (((List.range pos).map w).filter (· ≠ 0)) gs ds ∧ gs.length = n ∧
      g.length = st'.gtblsize ∧ (0 < st'.gtblsize → g.sum = n ∧
        ∀ v, g.getD v 0 = (gs.map (min · (st'.gtblsize - 1))).count v) ∧
      kt.length = 41 ∧ kt.sum = n ∧ ∀ v, kt.getD v 0 = (ds.map (min · 40)).count v := by
  obtain ⟨st', h1, h2, h3⟩ := gcdSetup_good size malloc0 st n hst hsize
  have hG : st'.gtblsize < 2 ^ 32 := by rw [h3]; split <;> omega
  have z : ∀ m v, (List.replicate m 0).getD v 0 = 0 := by
    intro m v; simp only [List.getD, List.getElem?_replicate]; split <;> rfl
  have t0 : Tallied (List.replicate st'.gtblsize 0)
      (if st'.gtblsize = 0 then [] else ([] : List Nat).map (min · (st'.gtblsize - 1)))
      (List.replicate st'.gtblsize 0) := by
    rw [List.map_nil, ite_self]; exact Tallied.nil _
  rcases gcdLoop_spec fuel w st'.gtblsize hG n 0 (List.replicate st'.gtblsize 0) (List.replicate 41 0)
      [] [] [] (by simp) .nil t0 (Tallied.nil _) with
    h | ⟨g', kt', pos', nz', gs', ds', c1, c2, c3, c4, c5, c6⟩
  · exact absurd h (gcdLoop_ok fuel w _ hG hw _ _ _ _)
  · subst c2
    have hl := GcdSamples.length c3
    have hlen : gs'.length = n := by simpa using c4
    refine ⟨st', g', kt', pos', gs', ds', ?_, h2, h3, c3, hlen, ?_, ?_, ?_, ?_, ?_⟩
    · rw [gcdTest, h1, Res.bind_ok, ktblsize, c1, Res.bind_ok]; rfl
    · rw [c5.len, List.length_replicate]
    · intro hpos
      have hne : st'.gtblsize ≠ 0 := by omega
      rw [if_neg hne] at c5
      refine ⟨by rw [c5.sum]; simp [hlen], fun v => by rw [c5.get, z, Nat.zero_add]⟩
    · rw [c6.len, List.length_replicate]
    · rw [c6.sum]; simp [hl.2, hlen]
    · intro v; rw [c6.get, z, Nat.zero_add]

/-- **C34**, where it fails.  With a `malloc` for which `malloc(0)` is not null, a first call with so few
samples that the table has size 0 leaves a table of no elements; the next call with enough samples writes
beyond it. -/
theorem C34_stale_table (size : Nat → Nat) (fuel : Nat) (w w' : Src) (n : Nat)
    (h0 : size 0 = 0) (h1 : 0 < size n) :
    ∃ st g kt pos, gcdTest size false fuel w ⟨none, 0⟩ 0 = .ok (st, g, kt, pos) ∧
      gcdTest size false fuel w' st n = .ub := by
  refine ⟨⟨some 0, 0⟩, [], List.replicate 41 0, 0, ?_, ?_⟩
  · simp [gcdTest, gcdSetup, h0, gcdLoop, ktblsize]
  · have : gcdSetup size false ⟨some 0, 0⟩ n = .ub := by
      simp only [gcdSetup, if_true, Option.getD_some]
      rw [if_neg (by omega)]
    rw [gcdTest, this]; rfl

/-- **C34.** A generator that only returns zeros from some point on keeps the test in its first loop. -/
theorem C34_zeros_loop (size : Nat → Nat) (malloc0 : Bool) (fuel : Nat) (st : GcdStatics) (n : Nat) (hn : 0 < n)
    (hst : st.Good) (hsize : malloc0 = true ∨ 0 < size n) :
    gcdTest size malloc0 fuel (fun _ => 0) st n = .loop := by
  obtain ⟨st', h1, h2, h3⟩ := gcdSetup_good size malloc0 st n hst hsize
  rw [gcdTest, h1, Res.bind_ok, show n = n - 1 + 1 from by omega, gcdLoop,
    drawNonzero_loop _ _ _ (fun _ _ => rfl)]
  rfl

/-- Two samples, `(6, 4)` and `(9, 3)`; a zero is skipped. -/
example : gcdTest (fun _ => 3) false 5 (fun i => [6, 0, 4, 9, 3].getD i 1) ⟨none, 0⟩ 2 =
    .ok (⟨some 3, 3⟩, [0, 0, 2], List.set (List.set (List.replicate 41 0) 2 1) 1 1, 5) := by decide +kernel

/-! ### C37 -/

namespace Spec

/-- The numbers a squeeze trial goes through when its draws start at position `p`. -/
def squeezed (prod : Int → Nat → ℚ) (p : Nat) : Nat → Int
  | 0 => 2147483647
  | j + 1 => ⌈prod (squeezed prod p j) (p + j)⌉

/-- A trial that starts at draw `p` makes `j` steps: it stops at the first 1, or after 48. -/
def SqueezeTrial (prod : Int → Nat → ℚ) (p j : Nat) : Prop :=
  j ≤ 48 ∧ (∀ i < j, squeezed prod p i ≠ 1) ∧ (j < 48 → squeezed prod p j = 1)

end Spec

theorem squeezed_range (prod : Int → Nat → ℚ) (hp : ∀ k p, 0 ≤ k → 0 ≤ prod k p ∧ prod k p ≤ k) (p j : Nat) :
    0 ≤ squeezed prod p j ∧ squeezed prod p j < 2 ^ 31 := by
  induction j with
  | zero => simp [squeezed]
  | succ j ih =>
    obtain ⟨h1, h2⟩ := hp _ (p + j) ih.1
    refine ⟨Int.ceil_nonneg h1, lt_of_le_of_lt (Int.ceil_le.2 h2) ih.2⟩

theorem squeezeLoop_spec (prod : Int → Nat → ℚ) (hp : ∀ k p, 0 ≤ k → 0 ≤ prod k p ∧ prod k p ≤ k) (p : Nat) :
    ∀ (left j : Nat), left + j = 48 → (∀ i < j, squeezed prod p i ≠ 1) →
    ∃ j', squeezeLoop prod left (squeezed prod p j) j (p + j) = .ok (j', p + j') ∧ SqueezeTrial prod p j'
  | 0, j, h, hi => ⟨j, rfl, by omega, hi, fun h => by omega⟩
  | left + 1, j, h, hi => by
    rw [squeezeLoop]
    by_cases h1 : squeezed prod p j = 1
    · rw [if_pos h1]; exact ⟨j, rfl, by omega, hi, fun _ => h1⟩
    · rw [if_neg h1]
      obtain ⟨r1, r2⟩ := squeezed_range prod hp p (j + 1)
      simp only
      rw [show ⌈prod (squeezed prod p j) (p + j)⌉ = squeezed prod p (j + 1) from rfl, if_neg (by omega)]
      refine squeezeLoop_spec prod hp p left (j + 1) (by omega) (fun i hi' => ?_)
      rcases Nat.lt_or_ge i j with h' | h'
      · exact hi i h'
      · rw [show i = j from by omega]; exact h1

namespace Spec

/-- The step counts of consecutive trials, the first of which starts at draw `p`. -/
def SqueezeTrials (prod : Int → Nat → ℚ) : (p : Nat) → (js : List Nat) → Prop
  | _, [] => True
  | p, j :: js => SqueezeTrial prod p j ∧ SqueezeTrials prod (p + j) js

end Spec

theorem squeezeSamples_spec (prod : Int → Nat → ℚ) (hp : ∀ k p, 0 ≤ k → 0 ≤ prod k p ∧ prod k p ≤ k) :
    ∀ (todo pos : Nat) (x l : List Nat), Tallied (List.replicate 43 0) l x →
    ∃ js x', squeezeSamples prod todo pos x = .ok (x', pos + js.sum) ∧ js.length = todo ∧
      SqueezeTrials prod pos js ∧ Tallied (List.replicate 43 0) (l ++ js.map (fun j => max 6 j - 6)) x'
  | 0, pos, x, l, t => ⟨[], x, rfl, rfl, trivial, by simpa using t⟩
  | todo + 1, pos, x, l, t => by
    obtain ⟨j, h1, h2⟩ := squeezeLoop_spec prod hp pos 48 0 rfl (fun i hi => by omega)
    have hle := h2.1
    obtain ⟨x1, hx1, t1⟩ := t.bump (i := max 6 j - 6) (by rw [List.length_replicate]; omega)
    obtain ⟨js, x2, e1, e2, e3, e4⟩ := squeezeSamples_spec prod hp todo (pos + j) x1 _ t1
    refine ⟨j :: js, x2, ?_, by simp [e2], ⟨h2, e3⟩, by simpa using e4⟩
    rw [squeezeSamples]
    rw [show (2147483647 : Int) = squeezed prod pos 0 from rfl, show squeezeLoop prod 48 (squeezed prod pos 0) 0 pos =
      squeezeLoop prod 48 (squeezed prod pos 0) 0 (pos + 0) from rfl, h1, Res.bind_ok]
    simp only
    rw [show (if j < 6 then 6 else j) = max 6 j from by split <;> omega, hx1, Res.bind_ok, e1]
    congr 2
    rw [List.sum_cons]; omega

/-- **C37.** Whatever the deviates (the double product `k*U` lies between 0 and `k`), each of the `n` trials
ends after at most 48 steps, when the number has become 1 for the first time or at step 48, and
adds one to the cell of its number of steps, at least 6; nothing else is counted. -/
theorem C37_squeeze (prod : Int → Nat → ℚ) (hp : ∀ k p, 0 ≤ k → 0 ≤ prod k p ∧ prod k p ≤ k) (n : Nat) :
    ∃ js x, squeeze prod n = .ok (x, js.sum) ∧ js.length = n ∧ SqueezeTrials prod 0 js ∧ (∀ j ∈ js, j ≤ 48) ∧
      x.length = 43 ∧ x.sum = n ∧ ∀ c, x.getD c 0 = js.countP (fun j => max 6 j = c + 6) := by
  obtain ⟨js, x, e1, e2, e3, e4⟩ := squeezeSamples_spec prod hp n 0 _ [] (Tallied.nil _)
  rw [Nat.zero_add] at e1
  refine ⟨js, x, e1, e2, e3, ?_, by rw [e4.len, List.length_replicate], by rw [e4.sum]; simp [e2], ?_⟩
  · clear e1 e2 e4
    generalize 0 = p at e3
    induction js generalizing p with
    | nil => simp
    | cons j js ih =>
      intro i hi
      rcases List.mem_cons.1 hi with rfl | h
      · exact e3.1.1
      · exact ih _ e3.2 i h
  · intro c
    have z : (List.replicate 43 0).getD c 0 = 0 := by
      simp only [List.getD, List.getElem?_replicate]; split <;> rfl
    rw [e4.get, z, Nat.zero_add, List.nil_append, List.count, List.countP_map]
    apply List.countP_congr
    intro j _
    simp only [Function.comp_apply, beq_iff_eq, decide_eq_true_eq]
    omega

/-- A deviate 0 makes the number 0, which never becomes 1: 48 steps. -/
example : squeeze (fun _ _ => 0) 1 = .ok (List.set (List.replicate 43 0) 42 1, 48) := by decide +kernel
/-- Halving 2^31-1 (rounding up) reaches 1 after 31 steps. -/
example : squeeze (fun k _ => k / 2) 2 = .ok (List.set (List.replicate 43 0) 25 2, 62) := by decide +kernel

/-! ### C48 -/

theorem persistLoop_bit (last : UInt) (b : Nat) (hb : b < 32) : ∀ (xs : List UInt) (m : UInt),
    (persistLoop last xs m).getLsbD b = (m.getLsbD b && xs.all fun x => x.getLsbD b == last.getLsbD b)
  | [], m => by simp [persistLoop]
  | x :: xs, m => by
    rw [persistLoop, persistLoop_bit last b hb xs, BitVec.getLsbD_and, BitVec.getLsbD_not, BitVec.getLsbD_xor]
    simp only [hb, decide_true, Bool.true_and, List.all_cons]
    cases m.getLsbD b <;> cases x.getLsbD b <;> cases last.getLsbD b <;> simp

theorem persistSample_bit (mask : UInt) (f : Nat → UInt) (cum : UInt) :
    ∃ c, persistSample mask ((List.range 256).map f) cum = .ok c ∧
      ∀ b < 32, (c.getLsbD b = true ↔ cum.getLsbD b = true ∨
        (mask.getLsbD b = true ∧ ∀ i < 256, (f i).getLsbD b = (f 0).getLsbD b)) := by
  refine ⟨_, by rw [persistSample, rd_ok (by simp)]; rfl, ?_⟩
  intro b hb
  have h0 : ((List.range 256).map f)[0]'(by simp) = f 0 := by simp
  rw [h0, BitVec.getLsbD_or, BitVec.getLsbD_and, persistLoop_bit _ _ hb, BitVec.getLsbD_not, BitVec.getLsbD_xor]
  simp only [hb, decide_true, Bool.true_and, Bool.xor_self, Bool.not_false, Bool.or_eq_true, Bool.and_eq_true,
    List.all_eq_true, List.mem_map, List.mem_range, beq_iff_eq, forall_exists_index, and_imp,
    forall_apply_eq_imp_iff₂]
  tauto

theorem persistSamples_bit (mask : UInt) (f : Nat → Nat → UInt) : ∀ (todo j : Nat) (cum : UInt),
    ∃ c, persistSamples mask f todo j cum = .ok c ∧
      ∀ b < 32, (c.getLsbD b = true ↔ cum.getLsbD b = true ∨
        (mask.getLsbD b = true ∧ ∃ s, j ≤ s ∧ s < j + todo ∧ ∀ i < 256, (f s i).getLsbD b = (f s 0).getLsbD b))
  | 0, j, cum => ⟨cum, rfl, fun b hb => ⟨Or.inl, by
      rintro (h | ⟨_, s, h1, h2, _⟩)
      · exact h
      · omega⟩⟩
  | todo + 1, j, cum => by
    obtain ⟨c1, h1, e1⟩ := persistSample_bit mask (f j) cum
    obtain ⟨c2, h2, e2⟩ := persistSamples_bit mask f todo (j + 1) c1
    refine ⟨c2, by rw [persistSamples, h1, Res.bind_ok, h2], fun b hb => ?_⟩
    rw [e2 b hb, e1 b hb]
    constructor
    · rintro ((h | ⟨hm, h⟩) | ⟨hm, s, s1, s2, h⟩)
      · exact Or.inl h
      · exact Or.inr ⟨hm, j, le_rfl, by omega, h⟩
      · exact Or.inr ⟨hm, s, by omega, by omega, h⟩
    · rintro (h | ⟨hm, s, s1, s2, h⟩)
      · exact Or.inl (Or.inl h)
      · rcases Nat.lt_or_ge j s with hs | hs
        · exact Or.inr ⟨hm, s, hs, by omega, h⟩
        · rw [show s = j from by omega] at h
          exact Or.inl (Or.inr ⟨hm, h⟩)

/-- **C48.** A bit of the cumulative mask is set exactly when it belongs to the generator's width mask and
kept the same value throughout at least one sample of 256 values. -/
theorem C48_persist (mask : UInt) (draws : Nat → Nat → UInt) (psamples : Nat) :
    ∃ c, persist mask draws psamples = .ok c ∧ ∀ b < 32, (c.getLsbD b = true ↔ mask.getLsbD b = true ∧
      ∃ s < psamples, ∃ v, ∀ i < 256, (draws s i).getLsbD b = v) := by
  obtain ⟨c, h1, h2⟩ := persistSamples_bit mask draws psamples 0 0
  refine ⟨c, h1, fun b hb => ?_⟩
  rw [h2 b hb]
  constructor
  · rintro (h | ⟨hm, s, s1, s2, h⟩)
    · simp at h
    · exact ⟨hm, s, by omega, _, h⟩
  · rintro ⟨hm, s, s1, v, h⟩
    exact Or.inr ⟨hm, s, by omega, by omega, fun i hi => by rw [h i hi, h 0 (by omega)]⟩

/-- Bit 0 alternates; bits 1 and 2 are stuck (at 1 and at 0); only the low three bits belong to the width. -/
example : persist 7 (fun _ i => BitVec.ofNat 32 (2 + i % 2)) 1 = .ok 6 := by decide +kernel

/-! ### C56 -/

theorem lagSkip_eq (n pos : Nat) : lagSkip n pos = pos + n := by
  induction n generalizing pos with
  | zero => rfl
  | succ n ih => rw [lagSkip, ih]; omega

theorem laggedLoop_eq (u : Nat → ℚ) (lag : Nat) : ∀ (todo pos : Nat) (x : ℚ),
    laggedLoop u lag todo pos x =
      (x + ((List.range todo).map fun t => u (pos + t * (lag + 1) + lag)).sum, pos + todo * (lag + 1))
  | 0, pos, x => by simp [laggedLoop]
  | todo + 1, pos, x => by
    rw [laggedLoop, lagSkip_eq]
    rw [laggedLoop_eq u lag todo, List.range_succ_eq_map, List.map_cons, List.sum_cons, List.map_map]
    have : ((fun t => u (pos + t * (lag + 1) + lag)) ∘ Nat.succ) =
        fun t => u (pos + lag + 1 + t * (lag + 1) + lag) := by
      funext t
      simp only [Function.comp_apply, Nat.succ_eq_add_one]
      congr 1; ring
    rw [this]
    congr 1
    · rw [Nat.zero_mul, Nat.add_zero]; ring
    · ring

/-- **C56.** The lagged sums test adds draws number `lag`, `2*lag+1`, `3*lag+2`, ..., one per sample, and
makes `tsamples*(lag+1)` draws in all. -/
theorem C56_lagged_sums (u : Nat → ℚ) (lag n : Nat) :
    laggedSums u lag n = (((List.range n).map fun t => u ((t + 1) * lag + t)).sum, n * (lag + 1)) := by
  rw [laggedSums, laggedLoop_eq]
  congr 1
  · rw [zero_add]
    congr 2
    funext t
    congr 1; ring
  · rw [Nat.zero_add]

example : laggedSums (fun i => i) 2 3 = (2 + 5 + 8, 9) := by decide +kernel

end Dh
