import Verif.Model.Parking
import Mathlib.Algebra.Order.Group.Abs
import Mathlib.Tactic.NormNum
/-
C47: the parking lot test.
-/
set_option linter.unusedSimpArgs false
namespace Dh
namespace Spec

/-- Two cars crash: they are at most 1 apart in both directions. -/
def Crash (a b : Car) : Prop := (-1 ≤ a.x - b.x ∧ a.x - b.x ≤ 1) ∧ (-1 ≤ a.y - b.y ∧ a.y - b.y ≤ 1)

/-- `acc` are the accepted ones among the first `n` attempts: the first one, and every later one that does not crash with an
accepted earlier one; in the order of the attempts. -/
structure Accepted (car : Nat → Car) (n : Nat) (acc : List Nat) : Prop where
  sorted : acc.Pairwise (· < ·)
  lt : ∀ i ∈ acc, i < n
  /-- Accepted cars do not crash with each other. -/
  apart : acc.Pairwise fun i j => ¬ Crash (car i) (car j)
  /-- A rejected attempt crashes with a car accepted before. -/
  rejected : ∀ m, m < n → m ∉ acc → ∃ i ∈ acc, i < m ∧ Crash (car i) (car m)

end Spec

theorem crash_iff (p c : Car) : (|p.x - c.x| ≤ 1 ∧ |p.y - c.y| ≤ 1) ↔ Spec.Crash p c := by
  rw [abs_le, abs_le, Spec.Crash]

theorem parkScan_spec (parked : List Car) (c : Car) : ∀ (todo i : Nat), i + todo ≤ parked.length →
    ∃ r, parkScan parked c todo i = .ok r ∧
      (r = true ↔ ∃ q, i ≤ q ∧ q < i + todo ∧ Spec.Crash (parked.getD q ⟨0, 0⟩) c) := by
  intro todo
  induction todo with
  | zero => intro i _; exact ⟨false, rfl, by simp; intro q h1 h2; omega⟩
  | succ todo ih =>
    intro i hi
    have hl : i < parked.length := by omega
    have hg : parked.getD i ⟨0, 0⟩ = parked[i] := by simp [List.getD, hl]
    rw [parkScan, rd_ok hl, Res.bind_ok]
    by_cases hc : |parked[i].x - c.x| ≤ 1 ∧ |parked[i].y - c.y| ≤ 1
    · rw [if_pos hc]
      exact ⟨true, rfl, by simp; exact ⟨i, by omega, by omega, by
        have := (crash_iff _ _).1 hc; rw [← hg] at this; simpa [List.getD] using this⟩⟩
    · rw [if_neg hc]
      obtain ⟨r, h1, h2⟩ := ih (i + 1) (by omega)
      refine ⟨r, h1, h2.trans ⟨?_, ?_⟩⟩
      · rintro ⟨q, h3, h4, h5⟩; exact ⟨q, by omega, by omega, h5⟩
      · rintro ⟨q, h3, h4, h5⟩
        refine ⟨q, ?_, by omega, h5⟩
        by_cases hq : q = i
        · subst hq
          rw [hg] at h5
          exact absurd ((crash_iff _ _).2 h5) hc
        · omega

/-- The array holds the accepted cars. -/
structure Parks (car : Nat → Car) (n : Nat) (parked : List Car) (k : Nat) (acc : List Nat) : Prop where
  ok : Spec.Accepted car n acc
  len : acc.length = k
  le : k ≤ n
  cars : ∀ i, i < k → parked.getD i ⟨0, 0⟩ = car (acc.getD i 0)

theorem Parks.crash_iff {car : Nat → Car} {n : Nat} {parked : List Car} {k : Nat} {acc : List Nat}
    (h : Parks car n parked k acc) (c : Car) :
    (∃ q, 0 ≤ q ∧ q < 0 + k ∧ Spec.Crash (parked.getD q ⟨0, 0⟩) c) ↔ ∃ i ∈ acc, Spec.Crash (car i) c := by
  constructor
  · rintro ⟨q, _, h1, h2⟩
    have hq : q < acc.length := by have := h.len; omega
    rw [h.cars q (by omega)] at h2
    refine ⟨acc.getD q 0, ?_, h2⟩
    have : acc.getD q 0 = acc[q] := by simp [List.getD, hq]
    rw [this]; exact List.getElem_mem hq
  · rintro ⟨i, hi, hc⟩
    obtain ⟨q, hq, rfl⟩ := List.mem_iff_getElem.1 hi
    refine ⟨q, by omega, by have := h.len; omega, ?_⟩
    rw [h.cars q (by have := h.len; omega)]
    have : acc.getD q 0 = acc[q] := by simp [List.getD, hq]
    rw [this]; exact hc

theorem parkLoop_spec (car : Nat → Car) : ∀ (todo n : Nat) (parked : List Car) (k : Nat) (acc : List Nat),
    n + todo ≤ parked.length → Parks car n parked k acc →
    ∃ parked' k' acc', parkLoop car todo n parked k = .ok (parked', k') ∧ Parks car (n + todo) parked' k' acc' ∧
      parked'.length = parked.length := by
  intro todo
  induction todo with
  | zero => intro n parked k acc _ h; exact ⟨parked, k, acc, rfl, h, rfl⟩
  | succ todo ih =>
    intro n parked k acc hl h
    have hkn := h.le
    obtain ⟨r, h1, h2⟩ := parkScan_spec parked (car n) k 0 (by omega)
    rw [h.crash_iff] at h2
    rw [parkLoop, h1, Res.bind_ok]
    cases r with
    | true =>
      rw [if_pos rfl]
      obtain ⟨i, hi, hc⟩ := h2.1 rfl
      obtain ⟨p', k', acc', h3, h4, h5⟩ := ih (n + 1) parked k acc (by omega) ⟨⟨h.ok.sorted,
        fun j hj => by have := h.ok.lt j hj; omega, h.ok.apart, fun m hm hma => by
          by_cases hmn : m = n
          · subst hmn; exact ⟨i, hi, h.ok.lt i hi, hc⟩
          · exact h.ok.rejected m (by omega) hma⟩, h.len, by omega, h.cars⟩
      exact ⟨p', k', acc', h3, by rw [show n + (todo + 1) = n + 1 + todo by omega]; exact h4, h5⟩
    | false =>
      have hk : k < parked.length := by omega
      rw [if_neg (by simp), wr, if_pos hk, Res.bind_ok]
      have hn : ∀ i ∈ acc, ¬ Spec.Crash (car i) (car n) := by
        intro i hi hc
        have := h2.2 ⟨i, hi, hc⟩
        cases this
      have hP : Parks car (n + 1) (parked.set k (car n)) (k + 1) (acc ++ [n]) := by
        refine ⟨⟨?_, ?_, ?_, ?_⟩, by simp [h.len], by omega, ?_⟩
        · rw [List.pairwise_append]
          exact ⟨h.ok.sorted, by simp, fun a ha b hb => by simp at hb; subst hb; exact h.ok.lt a ha⟩
        · intro i hi
          rcases List.mem_append.1 hi with hi | hi
          · have := h.ok.lt i hi; omega
          · simp at hi; omega
        · rw [List.pairwise_append]
          exact ⟨h.ok.apart, by simp, fun a ha b hb => by simp at hb; subst hb; exact hn a ha⟩
        · intro m hm hma
          have hma' : m ∉ acc := fun h' => hma (List.mem_append.2 (.inl h'))
          have hmn : m ≠ n := fun h' => hma (by simp [h'])
          obtain ⟨i, hi, h6, h7⟩ := h.ok.rejected m (by omega) hma'
          exact ⟨i, List.mem_append.2 (.inl hi), h6, h7⟩
        · intro i hi
          have hlen := h.len
          by_cases hik : i = k
          · subst hik
            simp only [List.getD]
            rw [List.getElem?_set_self hk, List.getElem?_append_right (by omega), hlen]
            simp
          · have := h.cars i (by omega)
            have hne : k ≠ i := Ne.symm hik
            simp only [List.getD, List.getElem?_set_ne hne] at this ⊢
            rw [this, List.getElem?_append_left (by omega)]
      obtain ⟨p', k', acc', h3, h4, h5⟩ := ih (n + 1) (parked.set k (car n)) (k + 1) (acc ++ [n]) (by simp; omega) hP
      exact ⟨p', k', acc', h3, by rw [show n + (todo + 1) = n + 1 + todo by omega]; exact h4, by simpa using h5⟩

/-- **C47**.  Whatever places are tried, the parking lot test accesses only its array of 12000 cars, and the cars it counts are
exactly the accepted ones among the 12000 attempts: pairwise not crashing, and every attempt that is not counted crashes with a
car accepted before. -/
theorem C47_parking (car : Nat → Car) :
    ∃ parked k acc, parkingLot car = .ok (parked, k) ∧ Spec.Accepted car 12000 acc ∧ acc.length = k ∧ 1 ≤ k ∧ k ≤ 12000 ∧
      parked.length = 12000 ∧ ∀ i, i < k → parked.getD i ⟨0, 0⟩ = car (acc.getD i 0) := by
  rw [parkingLot]
  have hN : ∀ N, 1 ≤ N → ∃ parked k acc,
      (wr (List.replicate N ⟨0, 0⟩) 0 (car 0) >>= fun parked => parkLoop car (N - 1) 1 parked 1) = .ok (parked, k) ∧
      Parks car N parked k acc ∧ parked.length = N := by
    intro N h1
    rw [wr, if_pos (by simp; omega), Res.bind_ok]
    obtain ⟨p, k, acc, h2, h3, h4⟩ := parkLoop_spec car (N - 1) 1 ((List.replicate N ⟨0, 0⟩).set 0 (car 0)) 1 [0]
      (by simp; omega) ⟨⟨by simp, by simp, by simp, fun m hm hma => by simp at hma; omega⟩, rfl, by omega, fun i hi => by
        have : i = 0 := by omega
        subst this
        simp [List.getD, List.getElem?_set]
        split <;> simp_all⟩
    rw [show 1 + (N - 1) = N by omega] at h3
    exact ⟨p, k, acc, h2, h3, by simpa using h4⟩
  obtain ⟨p, k, acc, h2, h3, h4⟩ := hN 12000 (by omega)
  refine ⟨p, k, acc, h2, h3.ok, h3.len, ?_, h3.le, h4, h3.cars⟩
  rcases Nat.eq_zero_or_pos k with h0 | h0
  · have : acc = [] := List.eq_nil_of_length_eq_zero (by rw [h3.len, h0])
    obtain ⟨i, hi, _⟩ := h3.ok.rejected 0 (by omega) (by rw [this]; simp)
    rw [this] at hi; simp at hi
  · exact h0

/-- The accepted attempts are determined by the places. -/
theorem C47_accepted_unique (car : Nat → Car) (n : Nat) (a b : List Nat) (ha : Spec.Accepted car n a)
    (hb : Spec.Accepted car n b) : a = b := by
  have key : ∀ m, m ∈ a ↔ m ∈ b := by
    intro m
    induction m using Nat.strongRecOn with
    | ind m ih =>
      have one : ∀ a b : List Nat, Spec.Accepted car n a → Spec.Accepted car n b → (∀ i, i < m → (i ∈ b → i ∈ a)) → m ∈ a →
          m ∈ b := by
        intro a b ha hb hab hma
        by_contra hmb
        obtain ⟨i, hi, him, hc⟩ := hb.rejected m (ha.lt m hma) hmb
        have hia := hab i him hi
        have hpw : ∀ i ∈ a, ∀ j ∈ a, i < j → ¬ Spec.Crash (car i) (car j) := by
          intro i hi j hj hij
          obtain ⟨p, hp, rfl⟩ := List.mem_iff_getElem.1 hi
          obtain ⟨q, hq, rfl⟩ := List.mem_iff_getElem.1 hj
          have hpq : p < q := by
            by_contra hle
            rcases Nat.lt_or_eq_of_le (Nat.le_of_not_lt hle) with h | h
            · have := List.pairwise_iff_getElem.1 ha.sorted q p hq hp h
              omega
            · subst h; omega
          exact List.pairwise_iff_getElem.1 ha.apart p q hp hq hpq
        exact hpw i hia m hma him hc
      exact ⟨one a b ha hb (fun i hi h => (ih i hi).2 h), one b a hb ha (fun i hi h => (ih i hi).1 h)⟩
  exact List.Perm.eq_of_pairwise (fun x y _ _ h1 h2 => by omega) ha.sorted hb.sorted
    ((List.perm_ext_iff_of_nodup (ha.sorted.imp (fun h => Nat.ne_of_lt h)) (hb.sorted.imp (fun h => Nat.ne_of_lt h))).2 key)

/-- Non-vacuity: cars at 0, 1/2, 2, 3/2, all in one row; the second crashes with the first, the last with the third. -/
example : Spec.Accepted (fun n => ⟨[0, 1 / 2, 2, 3 / 2].getD n 0, 0⟩) 4 [0, 2] := by
  refine ⟨by simp, by simp, ?_, ?_⟩
  · simp [Spec.Crash]
  · intro m hm h
    have : m = 1 ∨ m = 3 := by simp at h; omega
    rcases this with rfl | rfl
    · exact ⟨0, by simp, by omega, by simp [Spec.Crash]; norm_num⟩
    · exact ⟨2, by simp, by omega, by simp [Spec.Crash]; norm_num⟩

example : (parkLoop (fun n => ⟨[0, 1 / 2, 2, 3 / 2].getD n 0, 0⟩) 3 1 [⟨0, 0⟩, ⟨0, 0⟩, ⟨0, 0⟩, ⟨0, 0⟩] 1) =
    .ok ([⟨0, 0⟩, ⟨2, 0⟩, ⟨0, 0⟩, ⟨0, 0⟩], 2) := by decide +kernel

end Dh
