import Mathlib.Data.List.SplitBy
import Mathlib.Tactic.Linarith
import Verif.Model.Runs
import Verif.Proof.Tally
/-
C36: runs up and down.
-/
set_option linter.unusedSimpArgs false
namespace Dh

namespace Spec

/-- The maximal ascending runs of a sequence.  (`List.splitBy` cuts a list between neighbours that are not related.) -/
def upRuns (l : List UInt) : List (List UInt) := l.splitBy (fun a b => decide (a < b))

/-- The maximal descending runs of a sequence; equal neighbours belong to the same descending run. -/
def downRuns (l : List UInt) : List (List UInt) := l.splitBy (fun a b => !decide (a < b))

/-- The number of runs of a class: length 1, ..., 5 for the classes 0, ..., 4, and length 6 or more for class 5. -/
def inClass (runs : List (List UInt)) (c : Nat) : Nat :=
  runs.countP fun r => decide (if c < 5 then r.length = c + 1 else 6 ≤ r.length)

end Spec
open Spec

theorem splitBy_snoc_false {r : UInt → UInt → Bool} {l : List UInt} {A : List (List UInt)} {x : UInt} (hl : l ≠ [])
    (h : l.splitBy r = A) (hx : r (l.getLast hl) x = false) : (l ++ [x]).splitBy r = A ++ [[x]] := by
  rw [List.splitBy_append_cons [] (fun y hy => ?_), h, List.splitBy_of_isChain (by simp) (by simp)]
  rw [List.getLast?_eq_some_getLast hl, Option.mem_some] at hy
  rw [← hy]; exact hx

theorem splitBy_snoc_true {r : UInt → UInt → Bool} {l : List UInt} {A : List (List UInt)} {a : List UInt} {x : UInt}
    (hl : l ≠ []) (h : l.splitBy r = A ++ [a]) (hx : r (l.getLast hl) x = true) :
    (l ++ [x]).splitBy r = A ++ [a ++ [x]] := by
  obtain ⟨h1, h2, h3, h4⟩ := List.splitBy_eq_iff.1 h
  have ha : a ≠ [] := fun e => h2 (by rw [e]; simp)
  have hlast : l.getLast hl = a.getLast ha := by
    subst h1
    simp [List.getLast_append, ha]
  refine List.splitBy_eq_iff.2 ⟨?_, ?_, ?_, ?_⟩
  · rw [h1]; simp
  · intro hm
    rcases List.mem_append.1 hm with hm | hm
    · exact h2 (List.mem_append_left _ hm)
    · simp at hm
  · intro m hm
    rcases List.mem_append.1 hm with hm | hm
    · exact h3 m (List.mem_append_left _ hm)
    · rw [List.mem_singleton] at hm
      subst hm
      refine List.isChain_append.2 ⟨h3 a (by simp), by simp, ?_⟩
      intro y hy z hz
      rw [List.getLast?_eq_some_getLast ha, Option.mem_some] at hy
      simp only [List.head?_cons, Option.mem_some] at hz
      rw [← hy, ← hz, ← hlast]; exact hx
  · obtain ⟨c1, _, c3⟩ := List.isChain_append.1 h4
    refine List.isChain_append.2 ⟨c1, by simp, ?_⟩
    intro y hy z hz
    obtain ⟨p, q, e⟩ := c3 y hy a (by simp)
    simp only [List.head?_cons, Option.mem_some] at hz
    subst hz
    refine ⟨p, by simp, ?_⟩
    rw [List.head_append_left q]; exact e

/-- The index at which a run is counted. -/
def runIdx (r : List UInt) : Nat := min r.length 6 - 1

structure RunsInv (f0 : List Nat) (l : List UInt) (s : RunsSt) : Prop where
  ex : ∃ A a B b, upRuns l = A ++ [a] ∧ downRuns l = B ++ [b] ∧ s.ucount = min a.length 6 ∧ s.dcount = min b.length 6 ∧
    Tallied f0 (A.map runIdx) s.upruns ∧ Tallied f0 (B.map runIdx) s.downruns ∧ A.length + B.length + 1 = l.length

theorem run_pos {r : UInt → UInt → Bool} {l : List UInt} {A : List (List UInt)} {a : List UInt}
    (h : l.splitBy r = A ++ [a]) : 1 ≤ a.length := by
  have := List.nil_notMem_splitBy r l
  rw [h] at this
  rcases a with _ | ⟨x, a⟩
  · simp at this
  · simp

theorem runsStep_inv {f0 : List Nat} (hf : f0.length = 6) {l : List UInt} (hl : l ≠ []) {s : RunsSt} (h : RunsInv f0 l s)
    (x : UInt) : ∃ s', runsStep s (decide (x > l.getLast hl)) = .ok s' ∧ RunsInv f0 (l ++ [x]) s' := by
  obtain ⟨A, a, B, b, h1, h2, h3, h4, h5, h6, h7⟩ := h.ex
  have pa := run_pos h1
  have pb := run_pos h2
  by_cases hx : l.getLast hl < x
  · obtain ⟨f, e, t⟩ := h6.bump (i := runIdx b) (by rw [hf, runIdx]; omega)
    refine ⟨⟨min (a.length + 1) 6, 1, s.upruns, f⟩, ?_, ⟨A, a ++ [x], B ++ [b], [x], ?_, ?_, ?_, ?_, h5, ?_, ?_⟩⟩
    · have e' : bump s.downruns (s.dcount - 1) = .ok f := by rw [h4]; exact e
      rw [runsStep, if_pos (by simpa using hx)]
      simp only [e', Res.bind_ok, runMax, h3]
      congr 2
      split <;> omega
    · exact splitBy_snoc_true hl h1 (by simpa using hx)
    · exact splitBy_snoc_false hl h2 (by simpa using hx)
    · simp
    · rfl
    · rw [List.map_append]; exact t
    · simp only [List.length_append, List.length_singleton]; omega
  · obtain ⟨f, e, t⟩ := h5.bump (i := runIdx a) (by rw [hf, runIdx]; omega)
    refine ⟨⟨1, min (b.length + 1) 6, f, s.downruns⟩, ?_, ⟨A ++ [a], [x], B, b ++ [x], ?_, ?_, ?_, ?_, ?_, h6, ?_⟩⟩
    · have e' : bump s.upruns (s.ucount - 1) = .ok f := by rw [h3]; exact e
      rw [runsStep, if_neg (by simpa using hx)]
      simp only [e', Res.bind_ok, runMax, h4]
      congr 2
      split <;> omega
    · exact splitBy_snoc_false hl h1 (by simpa using hx)
    · exact splitBy_snoc_true hl h2 (by simpa using hx)
    · rfl
    · simp
    · rw [List.map_append]; exact t
    · simp only [List.length_append, List.length_singleton]; omega

/-- The first `t` draws. -/
def firstDraws (src : Src) (t : Nat) : List UInt := (List.range t).map src

theorem firstDraws_succ (src : Src) (t : Nat) : firstDraws src (t + 1) = firstDraws src t ++ [src t] := by
  rw [firstDraws, List.range_succ (n := t), List.map_append]; rfl

theorem firstDraws_ne (src : Src) {t : Nat} (ht : 1 ≤ t) : firstDraws src t ≠ [] := by
  intro h
  have := congrArg List.length h
  simp [firstDraws] at this
  omega

theorem firstDraws_last (src : Src) (t : Nat) (h : firstDraws src (t + 1) ≠ []) :
    (firstDraws src (t + 1)).getLast h = src t := by
  have : ∀ (m : List UInt) (hm : m ≠ []), m = firstDraws src t ++ [src t] → m.getLast hm = src t := by
    rintro m hm rfl; simp
  exact this _ h (firstDraws_succ src t)

theorem dhRunsLoop_inv (src : Src) (f0 : List Nat) (hf : f0.length = 6) : ∀ (todo t : Nat) (next : UInt) (s : RunsSt),
    RunsInv f0 (firstDraws src (t + 1)) s →
    ∃ s', dhRunsLoop src todo (t + 1) (src t) next s = .ok (if todo = 0 then next else src (t + todo), s') ∧
      RunsInv f0 (firstDraws src (t + 1 + todo)) s'
  | 0, t, next, s, h => ⟨s, by rw [dhRunsLoop, if_pos rfl], h⟩
  | todo + 1, t, next, s, h => by
    obtain ⟨s1, e1, i1⟩ := runsStep_inv hf (firstDraws_ne src (by omega)) h (src (t + 1))
    rw [firstDraws_last] at e1
    rw [← firstDraws_succ] at i1
    obtain ⟨s2, e2, i2⟩ := dhRunsLoop_inv src f0 hf todo (t + 1) (src (t + 1)) s1 i1
    refine ⟨s2, ?_, by rw [show t + 1 + (todo + 1) = t + 1 + 1 + todo from by omega]; exact i2⟩
    rw [dhRunsLoop]
    simp only [e1, Res.bind_ok, e2]
    rw [if_neg (show todo + 1 ≠ 0 by omega)]
    congr 2
    split
    · next h0 => rw [h0]
    · rw [show t + 1 + todo = t + (todo + 1) from by omega]

theorem tallied_class {f0 : List Nat} (hf : f0 = List.replicate 6 0) {A : List (List UInt)} (hA : ∀ r ∈ A, r ≠ []) {f : List Nat}
    (h : Tallied f0 (A.map runIdx) f) : f.length = 6 ∧ f.sum = A.length ∧ ∀ c < 6, f.getD c 0 = inClass A c := by
  subst hf
  refine ⟨by rw [h.len]; rfl, by rw [h.sum, List.length_map, List.sum_replicate_nat]; simp, fun c hc => ?_⟩
  have e0 : (List.replicate 6 0).getD c 0 = 0 := by
    simp only [List.getD, List.getElem?_replicate]; split <;> rfl
  rw [h.get, e0, Nat.zero_add, List.count, List.countP_map, inClass]
  apply List.countP_congr
  intro r hr
  have : 1 ≤ r.length := List.length_pos_iff.2 (hA r hr)
  simp only [Function.comp, runIdx, beq_iff_eq, decide_eq_true_eq]
  split <;> omega

/-- **C36.** The test counts the maximal ascending and descending runs of the draws by length, all except one: if the last
draw exceeds the first, the last ascending run is left out, otherwise the last descending run.  The number of runs
counted is the number of draws. -/
theorem C36_runs (src : Src) (n : Nat) (hn : 1 ≤ n) :
    ∃ up down, runs src n = .ok (up, down) ∧ up.length = 6 ∧ down.length = 6 ∧ up.sum + down.sum = n ∧
      (∀ c < 6, up.getD c 0 = inClass (if src 0 < src (n - 1) then (upRuns (firstDraws src n)).dropLast
        else upRuns (firstDraws src n)) c) ∧
      ∀ c < 6, down.getD c 0 = inClass (if src 0 < src (n - 1) then downRuns (firstDraws src n)
        else (downRuns (firstDraws src n)).dropLast) c := by
  generalize hf0 : List.replicate 6 0 = f0
  have hf : f0.length = 6 := by rw [← hf0]; rfl
  have base : RunsInv f0 (firstDraws src (0 + 1)) ⟨1, 1, f0, f0⟩ :=
    ⟨[], [src 0], [], [src 0], rfl, rfl, rfl, rfl, Tallied.nil _, Tallied.nil _, rfl⟩
  obtain ⟨s, e, ⟨A, a, B, b, h1, h2, h3, h4, h5, h6, h7⟩⟩ := dhRunsLoop_inv src f0 hf (n - 1) 0 0 _ base
  rw [show 0 + 1 + (n - 1) = n from by omega] at h1 h2 h7
  rw [Nat.zero_add, Nat.zero_add] at e
  have pa := run_pos h1
  have pb := run_pos h2
  have hlen : (firstDraws src n).length = n := by simp [firstDraws]
  rw [hlen] at h7
  have ne : ∀ r : UInt → UInt → Bool, ∀ m ∈ (firstDraws src n).splitBy r, m ≠ [] :=
    fun r m hm => List.ne_nil_of_mem_splitBy hm
  have nA : ∀ r ∈ A ++ [a], r ≠ [] := by rw [← h1]; exact ne _
  have nB : ∀ r ∈ B ++ [b], r ≠ [] := by rw [← h2]; exact ne _
  have nA' : ∀ r ∈ A, r ≠ [] := fun r hr => nA r (List.mem_append_left _ hr)
  have nB' : ∀ r ∈ B, r ≠ [] := fun r hr => nB r (List.mem_append_left _ hr)
  have hcmp : decide ((if n - 1 = 0 then (0 : UInt) else src (n - 1)) > src 0) = decide (src 0 < src (n - 1)) := by
    split
    · next h => rw [h]; simp
    · rfl
  have hrun : ∀ s', runsStep s (decide (src 0 < src (n - 1))) = .ok s' → runs src n = .ok (s'.upruns, s'.downruns) := by
    intro s' hs
    rw [runs]
    simp only [show runMax = 6 from rfl, hf0, e, Res.bind_ok, hcmp, hs]
  rw [h1, h2]
  by_cases hlt : src 0 < src (n - 1)
  · obtain ⟨f, e', t⟩ := h6.bump (i := runIdx b) (by rw [hf, runIdx]; omega)
    have t' : Tallied f0 ((B ++ [b]).map runIdx) f := by rw [List.map_append]; exact t
    obtain ⟨u1, u2, u3⟩ := tallied_class hf0.symm nA' h5
    obtain ⟨v1, v2, v3⟩ := tallied_class hf0.symm nB t'
    refine ⟨s.upruns, f, hrun ⟨if s.ucount + 1 > runMax then runMax else s.ucount + 1, 1, s.upruns, f⟩ ?_, u1, v1, ?_, ?_, ?_⟩
    · have e'' : bump s.downruns (s.dcount - 1) = .ok f := by rw [h4]; exact e'
      rw [runsStep, if_pos (by simpa using hlt)]
      simp only [e'', Res.bind_ok]
    · rw [u2, v2, List.length_append, List.length_singleton]; omega
    · simpa [hlt] using u3
    · simpa [hlt] using v3
  · obtain ⟨f, e', t⟩ := h5.bump (i := runIdx a) (by rw [hf, runIdx]; omega)
    have t' : Tallied f0 ((A ++ [a]).map runIdx) f := by rw [List.map_append]; exact t
    obtain ⟨u1, u2, u3⟩ := tallied_class hf0.symm nA t'
    obtain ⟨v1, v2, v3⟩ := tallied_class hf0.symm nB' h6
    refine ⟨f, s.downruns, hrun ⟨1, if s.dcount + 1 > runMax then runMax else s.dcount + 1, f, s.downruns⟩ ?_, u1, v1, ?_, ?_, ?_⟩
    · have e'' : bump s.upruns (s.ucount - 1) = .ok f := by rw [h3]; exact e'
      rw [runsStep, if_neg (by simpa using hlt)]
      simp only [e'', Res.bind_ok]
    · rw [u2, v2, List.length_append, List.length_singleton]; omega
    · simpa [hlt] using u3
    · simpa [hlt] using v3

/-- The runs cover the sequence, are ascending (descending), and are maximal: between neighbouring runs the sequence
does not ascend (does ascend). -/
theorem C36_partition (l : List UInt) :
    (upRuns l).flatten = l ∧ (downRuns l).flatten = l ∧
    (∀ r ∈ upRuns l, r ≠ [] ∧ r.IsChain (fun a b => a < b)) ∧
    (∀ r ∈ downRuns l, r ≠ [] ∧ r.IsChain (fun a b => ¬ a < b)) ∧
    (upRuns l).IsChain (fun r s => ∃ hr hs, ¬ r.getLast hr < s.head hs) ∧
    (downRuns l).IsChain (fun r s => ∃ hr hs, r.getLast hr < s.head hs) := by
  refine ⟨List.flatten_splitBy _ _, List.flatten_splitBy _ _, fun r hr => ⟨List.ne_nil_of_mem_splitBy hr, ?_⟩,
    fun r hr => ⟨List.ne_nil_of_mem_splitBy hr, ?_⟩, ?_, ?_⟩
  · have := List.isChain_of_mem_splitBy hr
    exact this.imp (fun a b h => by simpa using h)
  · have := List.isChain_of_mem_splitBy hr
    exact this.imp (fun a b h => by simpa using h)
  · exact (List.isChain_getLast_head_splitBy _ l).imp (fun r s ⟨h1, h2, h3⟩ => ⟨h1, h2, by simpa using h3⟩)
  · exact (List.isChain_getLast_head_splitBy _ l).imp (fun r s ⟨h1, h2, h3⟩ => ⟨h1, h2, by simpa using h3⟩)

/-- A sequence whose last ascending run, of length 3, is not counted. -/
theorem C36_left_out : runs (fun t => [5, 2, 4, 9].getD t 0) 4 = .ok ([1, 0, 0, 0, 0, 0], [2, 1, 0, 0, 0, 0]) ∧
    upRuns [5, 2, 4, 9] = [[5], [2, 4, 9]] ∧ downRuns [5, 2, 4, 9] = [[5, 2], [4], [9]] := by decide +kernel

example : runs (fun t => [1, 2, 3, 4, 5, 6, 7, 3, 1, 1].getD t 0) 10 = .ok ([3, 0, 0, 0, 0, 1], [6, 0, 0, 0, 0, 0]) := by
  decide +kernel

end Dh
