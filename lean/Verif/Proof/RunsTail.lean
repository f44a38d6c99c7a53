import Mathlib.Algebra.BigOperators.Ring.Finset
import Mathlib.Tactic.Ring
import Verif.Model.Runs
import Verif.Proof.Tally
/-
The counts of diehard_runs.c as sums over the places where runs end.
-/
set_option linter.unusedSimpArgs false
namespace Dh

/-- The `p` links before place `s` all hold. -/
def linked (r : Nat → Bool) : (p s : Nat) → Bool
  | 0, _ => true
  | _ + 1, 0 => false
  | p + 1, s + 1 => r s && linked r p s

/-- The number of runs of more than `p` places that end at one of the places `0, ..., n-1`. -/
def runTail (r : Nat → Bool) (p n : Nat) : Nat := ((List.range n).filter fun s => !r s && linked r p s).length

theorem runTail_succ (r : Nat → Bool) (p n : Nat) : runTail r p (n + 1) = runTail r p n + if !r n && linked r p n then 1 else 0 := by
  rw [runTail, List.range_succ, List.filter_append, List.length_append, ← runTail]
  congr 1
  by_cases h : (!r n && linked r p n) = true <;> simp [h]

theorem drop_set_sum : ∀ (f : List Nat) (i x p : Nat), i < f.length → ((f.set i (f.getD i 0 + x)).drop p).sum = (f.drop p).sum + if p ≤ i then x else 0
  | [], i, x, p, h => by simp at h
  | a :: f, 0, x, 0, h => by simp; omega
  | a :: f, 0, x, p + 1, h => by simp
  | a :: f, i + 1, x, 0, h => by
    have := drop_set_sum f i x 0 (by simpa using h)
    simp only [List.drop_zero, Nat.zero_le, if_true] at this
    simp only [List.set_cons_succ, List.getD_cons_succ, List.drop_zero, List.sum_cons, this, Nat.zero_le, if_true]
    omega
  | a :: f, i + 1, x, p + 1, h => by
    simp only [List.set_cons_succ, List.getD_cons_succ, List.drop_succ_cons, drop_set_sum f i x p (by simpa using h), Nat.add_le_add_iff_right]

/-- One side of the state after `s` steps with the results `r` of the comparisons. -/
structure SideInv (r : Nat → Bool) (s count : Nat) (f : List Nat) : Prop where
  pos : 1 ≤ count
  le : count ≤ 6
  len : f.length = 6
  run : ∀ p < 6, p < count ↔ linked r p s = true
  tail : ∀ p < 6, (f.drop p).sum = runTail r p s

theorem SideInv.yes {r : Nat → Bool} {s count : Nat} {f : List Nat} (h : SideInv r s count f) (hr : r s = true) :
    SideInv r (s + 1) (if count + 1 > runMax then runMax else count + 1) f := by
  have := h.pos
  have := h.le
  rw [show runMax = 6 from rfl]
  refine ⟨by split <;> omega, by split <;> omega, h.len, ?_, ?_⟩
  · intro p hp
    cases p with
    | zero => simp [linked]; split <;> omega
    | succ p =>
      rw [linked, hr, Bool.true_and, ← h.run p (by omega)]
      split <;> omega
  · intro p hp
    rw [runTail_succ, h.tail p hp, hr]
    simp

theorem SideInv.no {r : Nat → Bool} {s count : Nat} {f : List Nat} (h : SideInv r s count f) (hr : r s = false) :
    ∃ g, bump f (count - 1) = .ok g ∧ SideInv r (s + 1) 1 g := by
  have h1 := h.pos
  have h2 := h.le
  have h3 : count - 1 < f.length := by rw [h.len]; omega
  refine ⟨_, bump_ok h3, by omega, by omega, by rw [List.length_set, h.len], ?_, ?_⟩
  · intro p hp
    cases p with
    | zero => simp [linked]
    | succ p => simp [linked, hr]
  · intro p hp
    rw [drop_set_sum _ _ _ _ h3, runTail_succ, h.tail p hp, hr]
    have := h.run p hp
    congr 1
    by_cases hl : linked r p s = true
    · rw [if_pos (by have := this.2 hl; omega)]; simp [hl]
    · rw [if_neg (by have := mt this.1 hl; omega)]; simp [hl]

theorem runsStep_sides {r : Nat → Bool} {s : Nat} {st : RunsSt} (hu : SideInv r s st.ucount st.upruns) (hd : SideInv (fun t => !r t) s st.dcount st.downruns) :
    ∃ st', runsStep st (r s) = .ok st' ∧ SideInv r (s + 1) st'.ucount st'.upruns ∧ SideInv (fun t => !r t) (s + 1) st'.dcount st'.downruns := by
  cases hr : r s with
  | true =>
    obtain ⟨g, e, hg⟩ := hd.no (by simp [hr])
    exact ⟨⟨if st.ucount + 1 > runMax then runMax else st.ucount + 1, 1, st.upruns, g⟩, by simp only [runsStep, if_true, e, Res.bind_ok], hu.yes hr, hg⟩
  | false =>
    obtain ⟨g, e, hg⟩ := hu.no hr
    exact ⟨⟨1, if st.dcount + 1 > runMax then runMax else st.dcount + 1, g, st.downruns⟩, by simp only [runsStep, Bool.false_eq_true, if_false, e, Res.bind_ok], hg, hd.yes (by simp [hr])⟩

theorem dhRunsLoop_sides (src : Src) (r : Nat → Bool) : ∀ (todo t : Nat) (next : UInt) (st : RunsSt),
    (∀ s, t ≤ s → s < t + todo → r s = decide (src (s + 1) > src s)) →
    SideInv r t st.ucount st.upruns → SideInv (fun t => !r t) t st.dcount st.downruns →
    ∃ st', dhRunsLoop src todo (t + 1) (src t) next st = .ok (if todo = 0 then next else src (t + todo), st') ∧
      SideInv r (t + todo) st'.ucount st'.upruns ∧ SideInv (fun t => !r t) (t + todo) st'.dcount st'.downruns
  | 0, t, next, st, _, hu, hd => ⟨st, by simp [dhRunsLoop], hu, hd⟩
  | todo + 1, t, next, st, h, hu, hd => by
    obtain ⟨st', e, hu', hd'⟩ := runsStep_sides hu hd
    obtain ⟨st2, e2, hu2, hd2⟩ := dhRunsLoop_sides src r todo (t + 1) (src (t + 1)) st' (fun s h1 h2 => h s (by omega) (by omega)) hu' hd'
    refine ⟨st2, ?_, by rw [← Nat.add_assoc, Nat.add_right_comm]; exact hu2, by rw [← Nat.add_assoc, Nat.add_right_comm]; exact hd2⟩
    rw [dhRunsLoop, ← h t (by omega) (by omega), e, Res.bind_ok, e2]
    congr 2
    rw [if_neg (by omega : todo + 1 ≠ 0)]
    split
    · next h0 => rw [h0]
    · congr 1; omega

/-- The comparisons of diehard_runs.c: of neighbours, and of the last draw with the first. -/
def runsBit (src : Src) (n s : Nat) : Bool := if s + 1 < n then decide (src (s + 1) > src s) else decide (src s > src 0)

theorem runs_tails (src : Src) (n : Nat) (hn : 2 ≤ n) : ∃ up down, runs src n = .ok (up, down) ∧ up.length = 6 ∧ down.length = 6 ∧
    (∀ p < 6, (up.drop p).sum = runTail (runsBit src n) p n) ∧ ∀ p < 6, (down.drop p).sum = runTail (fun s => !runsBit src n s) p n := by
  have init : ∀ r : Nat → Bool, SideInv r 0 1 (List.replicate 6 0) := fun r => by
    refine ⟨by omega, by omega, rfl, ?_, ?_⟩
    · intro p hp
      cases p <;> simp [linked]
    · intro p hp
      rw [runTail, List.drop_replicate, List.sum_replicate]
      simp
  obtain ⟨st, e, hu, hd⟩ := dhRunsLoop_sides src (runsBit src n) (n - 1) 0 0 ⟨1, 1, List.replicate 6 0, List.replicate 6 0⟩
    (fun s _ h => by rw [runsBit, if_pos (by omega)]) (init _) (init _)
  obtain ⟨st', e', hu', hd'⟩ := runsStep_sides hu hd
  rw [Nat.zero_add] at e e' hu' hd'
  rw [Nat.zero_add, if_neg (by omega)] at e
  rw [show n - 1 + 1 = n by omega] at hu' hd'
  refine ⟨st'.upruns, st'.downruns, ?_, hu'.len, hd'.len, hu'.tail, hd'.tail⟩
  have hb : runsBit src n (n - 1) = decide (src (n - 1) > src 0) := by rw [runsBit, if_neg (by omega)]
  rw [hb] at e'
  rw [runs]
  simp only [show runMax = 6 from rfl, e, Res.bind_ok, e']

end Dh
