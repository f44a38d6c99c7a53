import Mathlib.Data.List.Dedup
import Mathlib.Data.List.GetD
import Mathlib.Tactic.Linarith
import Mathlib.Tactic.Ring
import Verif.Model.Birthdays
import Verif.Proof.Tally
/-
C30: repeated birthday spacings.
-/
set_option linter.unusedSimpArgs false
namespace Dh

namespace Spec

/-- The number of values that occur more than once in a list. -/
def repeated (l : List UInt) : Nat := l.dedup.countP fun v => decide (2 ≤ l.count v)

/-- A list written as blocks of equal values. -/
def expand (blks : List (UInt × Nat)) : List UInt := blks.flatMap fun b => List.replicate b.2 b.1

end Spec
open Spec

/-- The blocks are not empty and in increasing order of their values. -/
def BlocksOk (blks : List (UInt × Nat)) : Prop :=
  (∀ b ∈ blks, 1 ≤ b.2) ∧ blks.Pairwise (fun b c => b.1.toNat < c.1.toNat)

/-- What the loop does with the blocks: after a repeated value it skips one more element.  `none` is the read beyond the
end of the array. -/
def birthOutcome : (skip : Bool) → List Nat → Option Nat
  | _, [] => some 0
  | skip, s :: rest =>
    if 2 ≤ s - skip.toNat then (if rest = [] then none else (birthOutcome true rest).map (· + 1))
    else birthOutcome false rest

theorem birthWhile_spec (iv : List UInt) (m : Nat) (a : UInt) (hm : iv[m]? = some a) : ∀ (s mnext fuel : Nat), s < fuel →
    (∀ j < s, iv[mnext + j]? = some a) → iv[mnext + s]? ≠ some a →
    birthWhile iv m fuel mnext = if iv[mnext + s]? = none then .ub else .ok (mnext + s)
  | s, mnext, 0, hf, _, _ => by omega
  | 0, mnext, fuel + 1, _, _, h => by
    rw [birthWhile, rd, hm, Res.bind_ok, rd]
    rw [Nat.add_zero] at h ⊢
    cases hx : iv[mnext]? with
    | none => rfl
    | some b =>
      rw [hx] at h
      simp only [Res.bind_ok]
      rw [if_neg (fun e => h (by rw [e])), if_neg (by simp), Nat.add_zero]
  | s + 1, mnext, fuel + 1, hf, hall, h => by
    have h0 := hall 0 (by omega)
    rw [Nat.add_zero] at h0
    rw [birthWhile, rd, hm, Res.bind_ok, rd, h0, Res.bind_ok, if_pos rfl,
      birthWhile_spec iv m a hm s (mnext + 1) fuel (by omega)
        (fun j hj => by rw [show mnext + 1 + j = mnext + (j + 1) from by omega]; exact hall (j + 1) (by omega))
        (by rw [show mnext + 1 + s = mnext + (s + 1) from by omega]; exact h),
      show mnext + 1 + s = mnext + (s + 1) from by omega]

theorem expand_cons (b : UInt × Nat) (blks : List (UInt × Nat)) : expand (b :: blks) = List.replicate b.2 b.1 ++ expand blks := rfl

theorem getElem?_block (P : List UInt) (a : UInt) (s : Nat) (blks : List (UInt × Nat)) (j : Nat) (hj : j < s) :
    (P ++ expand ((a, s) :: blks))[P.length + j]? = some a := by
  rw [List.getElem?_append_right (by omega), expand_cons, List.getElem?_append_left (by simp; omega)]
  simp [List.getElem?_replicate, hj]

theorem getElem?_next (P : List UInt) (a : UInt) (s : Nat) (blks : List (UInt × Nat)) (h1 : ∀ b ∈ blks, 1 ≤ b.2) :
    (P ++ expand ((a, s) :: blks))[P.length + s]? = blks.head?.map Prod.fst := by
  rw [List.getElem?_append_right (by omega), expand_cons, List.getElem?_append_right (by simp)]
  simp only [List.length_replicate]
  rw [show P.length + s - P.length - s = 0 from by omega]
  match blks, h1 with
  | [], _ => rfl
  | (b, t) :: blks, h1 =>
    have : 1 ≤ t := h1 (b, t) (by simp)
    rw [expand_cons, List.getElem?_append_left (by simp; omega)]
    simp [List.getElem?_replicate]; omega

theorem birthLoop_spec (iv : List UInt) : ∀ (blks : List (UInt × Nat)) (P : List UInt) (skip : Bool) (fuel k : Nat),
    BlocksOk blks → iv = P ++ expand blks → (expand blks).length < fuel →
    birthLoop iv iv.length fuel (P.length + skip.toNat) k =
      match birthOutcome skip (blks.map Prod.snd) with
      | none => .ub
      | some c => .ok (k + c)
  | [], P, skip, fuel, k, _, hiv, hf => by
    cases fuel with
    | zero => simp at hf
    | succ fuel =>
      have : iv.length = P.length := by rw [hiv]; simp [expand]
      rw [birthLoop, if_neg (by omega)]
      rfl
  | (a, s) :: blks, P, skip, fuel, k, hb, hiv, hf => by
    have hs : 1 ≤ s := hb.1 (a, s) (by simp)
    have hb' : BlocksOk blks := ⟨fun b h => hb.1 b (by simp [h]), (List.pairwise_cons.1 hb.2).2⟩
    have hlen : iv.length = P.length + s + (expand blks).length := by
      rw [hiv, List.length_append, expand_cons, List.length_append, List.length_replicate]; simp only; omega
    have hexp : (expand ((a, s) :: blks)).length = s + (expand blks).length := by
      rw [expand_cons, List.length_append, List.length_replicate]
    have hne : blks ≠ [] → 1 ≤ (expand blks).length := by
      intro h
      match blks, hb', h with
      | (b, t) :: blks, hb', _ =>
        have : 1 ≤ t := hb'.1 (b, t) (by simp)
        rw [expand_cons, List.length_append, List.length_replicate]; simp only; omega
    have hiv' : iv = (P ++ List.replicate s a) ++ expand blks := by rw [hiv, expand_cons, List.append_assoc]
    have hP' : (P ++ List.replicate s a).length = P.length + s := by simp
    have hget : ∀ j < s, iv[P.length + j]? = some a := fun j hj => by rw [hiv]; exact getElem?_block P a s blks j hj
    have hnext : iv[P.length + s]? = blks.head?.map Prod.fst := by rw [hiv]; exact getElem?_next P a s blks hb'.1
    have hnea : iv[P.length + s]? ≠ some a := by
      rw [hnext]
      match blks, hb with
      | [], _ => simp
      | (b, t) :: blks, hb =>
        have := (List.pairwise_cons.1 hb.2).1 (b, t) (by simp)
        simp only [List.head?_cons, Option.map_some, ne_eq, Option.some.injEq]
        intro e; simp only [e, lt_irrefl] at this
    rw [List.map_cons, birthOutcome]
    by_cases h2 : 2 ≤ s - skip.toNat
    · rw [if_pos h2]
      cases fuel with
      | zero => omega
      | succ fuel =>
        have hw := birthWhile_spec iv (P.length + skip.toNat) a (hget skip.toNat (by omega)) (s - skip.toNat - 1)
          (P.length + skip.toNat + 1) (iv.length + 1) (by omega)
          (fun j hj => by
            rw [show P.length + skip.toNat + 1 + j = P.length + (skip.toNat + 1 + j) from by omega]
            exact hget _ (by omega))
          (by rw [show P.length + skip.toNat + 1 + (s - skip.toNat - 1) = P.length + s from by omega]; exact hnea)
        rw [show P.length + skip.toNat + 1 + (s - skip.toNat - 1) = P.length + s from by omega, hnext] at hw
        rw [birthLoop, if_pos (by omega), hw]
        by_cases hbl : blks = []
        · subst hbl; rfl
        · have hh : blks.head?.map Prod.fst ≠ none := by
            match blks, hbl with
            | b :: blks, _ => simp
          rw [if_neg hh, Res.bind_ok, if_neg (show ¬ blks.map Prod.snd = [] by simpa using hbl)]
          simp only
          rw [if_pos (show P.length + s ≠ P.length + skip.toNat + 1 by omega), if_pos (show P.length + s ≠ P.length + skip.toNat + 1 by omega)]
          have ih := birthLoop_spec iv blks (P ++ List.replicate s a) true fuel (k + 1) hb' hiv' (by omega)
          rw [hP'] at ih
          rw [show P.length + s + 1 = P.length + s + true.toNat from rfl, ih]
          cases birthOutcome true (blks.map Prod.snd) with
          | none => rfl
          | some c => simp only [Option.map_some]; congr 1; omega
    · rw [if_neg h2]
      have ih := fun fuel hfuel => birthLoop_spec iv blks (P ++ List.replicate s a) false fuel k hb' hiv' hfuel
      rw [hP'] at ih
      simp only [Bool.toNat_false, Nat.add_zero] at ih
      by_cases h1 : s - skip.toNat = 0
      · have : P.length + skip.toNat = P.length + s := by have := Bool.toNat_le skip; omega
        rw [this]
        exact ih fuel (by omega)
      · have hsm : P.length + skip.toNat + 1 = P.length + s := by omega
        cases fuel with
        | zero => omega
        | succ fuel =>
          rw [birthLoop]
          by_cases hbl : blks = []
          · subst hbl
            have : (expand ([] : List (UInt × Nat))).length = 0 := rfl
            rw [if_neg (by omega)]
            rfl
          · have := hne hbl
            rw [if_pos (by omega)]
            have hw := birthWhile_spec iv (P.length + skip.toNat) a (hget skip.toNat (by omega)) 0
              (P.length + skip.toNat + 1) (iv.length + 1) (by omega) (fun j hj => by omega)
              (by rw [hsm]; exact hnea)
            rw [hsm, Nat.add_zero, hnext] at hw
            have hh : blks.head?.map Prod.fst ≠ none := by
              match blks, hbl with
              | b :: blks, _ => simp
            rw [if_neg hh] at hw
            rw [hsm, hw, Res.bind_ok]
            simp only [ne_eq, not_true_eq_false, if_false]
            rw [hsm]
            exact ih fuel (by omega)

theorem exists_blocks : ∀ (l : List UInt), l.Pairwise (fun a b => a.toNat ≤ b.toNat) → ∃ blks, BlocksOk blks ∧ l = expand blks ∧
    ∀ b ∈ blks, b.1 ∈ l
  | [], _ => ⟨[], ⟨by simp, by simp⟩, rfl, by simp⟩
  | a :: l, h => by
    obtain ⟨hle, hl⟩ := List.pairwise_cons.1 h
    obtain ⟨blks, hb, he, hm⟩ := exists_blocks l hl
    match blks, hb, he, hm with
    | [], hb, he, hm => exact ⟨[(a, 1)], ⟨by simp, by simp⟩, by rw [he]; rfl, by simp⟩
    | (b, s) :: blks, hb, he, hm =>
      have hs : 1 ≤ s := hb.1 (b, s) (by simp)
      obtain ⟨p1, p2⟩ := List.pairwise_cons.1 hb.2
      by_cases hab : a = b
      · subst hab
        refine ⟨(a, s + 1) :: blks, ⟨?_, ?_⟩, ?_, ?_⟩
        · intro c hc
          rcases List.mem_cons.1 hc with rfl | hc
          · simp
          · exact hb.1 c (by simp [hc])
        · exact List.pairwise_cons.2 ⟨p1, p2⟩
        · rw [he, expand_cons, expand_cons, List.replicate_succ]; rfl
        · intro c hc
          rcases List.mem_cons.1 hc with rfl | hc
          · simp
          · exact List.mem_cons_of_mem _ (hm c (by simp [hc]))
      · have hlt : a.toNat < b.toNat := by
          have h1 := hle b (hm (b, s) (by simp))
          have h2 : a.toNat ≠ b.toNat := fun e => hab (BitVec.eq_of_toNat_eq e)
          omega
        refine ⟨(a, 1) :: (b, s) :: blks, ⟨?_, ?_⟩, ?_, ?_⟩
        · intro c hc
          rcases List.mem_cons.1 hc with rfl | hc
          · simp
          · exact hb.1 c hc
        · refine List.pairwise_cons.2 ⟨?_, hb.2⟩
          intro c hc
          rcases List.mem_cons.1 hc with rfl | hc
          · exact hlt
          · exact hlt.trans (p1 c hc)
        · rw [he, expand_cons (a, 1)]; rfl
        · intro c hc
          rcases List.mem_cons.1 hc with rfl | hc
          · simp
          · exact List.mem_cons_of_mem _ (hm c hc)

theorem count_expand_notMem (v : UInt) : ∀ (blks : List (UInt × Nat)), (∀ b ∈ blks, b.1 ≠ v) → (expand blks).count v = 0
  | [], _ => rfl
  | (a, s) :: blks, h => by
    rw [expand_cons, List.count_append, List.count_replicate, count_expand_notMem v blks (fun b hb => h b (by simp [hb])),
      if_neg (by simpa using h (a, s) (by simp))]

theorem count_expand : ∀ (blks : List (UInt × Nat)), BlocksOk blks → ∀ b ∈ blks, (expand blks).count b.1 = b.2
  | [], _, b, hb => by simp at hb
  | (a, s) :: blks, h, b, hb => by
    obtain ⟨p1, p2⟩ := List.pairwise_cons.1 h.2
    rw [expand_cons, List.count_append, List.count_replicate]
    rcases List.mem_cons.1 hb with rfl | hb
    · rw [if_pos (by simp), count_expand_notMem _ _ (fun c hc e => by have := p1 c hc; rw [e] at this; omega)]
      rfl
    · have hne : ¬ a = b.1 := fun e => by have := p1 b hb; simp only [e, lt_irrefl] at this
      rw [if_neg (by simpa using hne), Nat.zero_add]
      exact count_expand blks ⟨fun c hc => h.1 c (by simp [hc]), p2⟩ b hb

theorem mem_expand (blks : List (UInt × Nat)) (h : ∀ b ∈ blks, 1 ≤ b.2) (v : UInt) : v ∈ expand blks ↔ v ∈ blks.map Prod.fst := by
  simp only [expand, List.mem_flatMap, List.mem_replicate, List.mem_map]
  constructor
  · rintro ⟨b, hb, _, rfl⟩; exact ⟨b, hb, rfl⟩
  · rintro ⟨b, hb, rfl⟩; exact ⟨b, hb, by have := h b hb; omega, rfl⟩

theorem repeated_expand (blks : List (UInt × Nat)) (h : BlocksOk blks) :
    repeated (expand blks) = (blks.map Prod.snd).countP fun s => decide (2 ≤ s) := by
  have hn : (blks.map Prod.fst).Nodup := by
    rw [List.Nodup, List.pairwise_map]
    exact h.2.imp (fun hlt e => by rw [e] at hlt; omega)
  have hp : (expand blks).dedup.Perm (blks.map Prod.fst) :=
    (List.perm_ext_iff_of_nodup (List.nodup_dedup _) hn).2 fun v => by rw [List.mem_dedup, mem_expand blks h.1]
  rw [repeated, hp.countP_eq, List.countP_map, List.countP_map]
  apply List.countP_congr
  intro b hb
  simp only [Function.comp, count_expand blks h b hb]

theorem repeated_perm {l l' : List UInt} (h : l.Perm l') : repeated l = repeated l' := by
  rw [repeated, repeated, (h.dedup).countP_eq]
  apply List.countP_congr
  intro v _
  rw [h.count_eq]

theorem sortUint_perm (l : List UInt) : (sortUint l).Perm l := List.mergeSort_perm _ _

theorem sortUint_sorted (l : List UInt) : (sortUint l).Pairwise (fun a b => a.toNat ≤ b.toNat) := by
  have := List.pairwise_mergeSort (le := fun a b : UInt => decide (a.toNat ≤ b.toNat))
    (fun a b c h1 h2 => by
      simp only [decide_eq_true_eq] at h1 h2 ⊢
      omega)
    (fun a b => by
      simp only [Bool.or_eq_true, decide_eq_true_eq]
      omega) l
  exact this.imp (fun h => by simpa using h)

theorem spacings_length : ∀ (l : List UInt) (p : UInt), (spacings p l).length = l.length
  | [], _ => rfl
  | x :: l, p => by rw [spacings, List.length_cons, spacings_length l x, List.length_cons]

/-- **C30, everything.** Let the distinct spacings in increasing order occur `s_1, s_2, ...` times.  What the loop finds
is determined by these numbers, as `birthOutcome` says: a value that occurs at least twice is counted, and then one
element more is skipped, so that the following value has one occurrence less; if the largest value is to be counted, the
loop reads beyond the end of the array. -/
theorem C30_outcome (rands : List UInt) :
    ∃ blks, BlocksOk blks ∧ (spacings 0 (sortUint rands)).Perm (expand blks) ∧
      (∀ v s, (v, s) ∈ blks ↔ v ∈ spacings 0 (sortUint rands) ∧ (spacings 0 (sortUint rands)).count v = s) ∧
      birthSample rands = match birthOutcome false (blks.map Prod.snd) with
        | none => .ub
        | some c => .ok c := by
  obtain ⟨blks, hb, he, _⟩ := exists_blocks _ (sortUint_sorted (spacings 0 (sortUint rands)))
  have hp : (spacings 0 (sortUint rands)).Perm (expand blks) := by rw [← he]; exact (sortUint_perm _).symm
  refine ⟨blks, hb, hp, fun v s => ?_, ?_⟩
  · rw [hp.mem_iff, hp.count_eq, mem_expand blks hb.1]
    constructor
    · intro h
      exact ⟨List.mem_map.2 ⟨(v, s), h, rfl⟩, count_expand blks hb (v, s) h⟩
    · rintro ⟨h1, h2⟩
      obtain ⟨⟨v', s'⟩, hb', rfl⟩ := List.mem_map.1 h1
      have := count_expand blks hb (v', s') hb'
      simp only at this h2
      rw [h2] at this
      rw [this]; exact hb'
  · have hl : (sortUint (spacings 0 (sortUint rands))).length = rands.length := by
      rw [(sortUint_perm _).length_eq, spacings_length, (sortUint_perm _).length_eq]
    have := birthLoop_spec (sortUint (spacings 0 (sortUint rands))) blks [] false (rands.length + 1) 0 hb (by rw [he]; rfl)
      (by rw [← he, hl]; omega)
    rw [hl] at this
    rw [birthSample]
    simp only [List.length_nil, Bool.toNat_false, Nat.add_zero, Nat.zero_add] at this
    exact this

theorem birthOutcome_le : ∀ (sizes : List Nat) (skip : Bool) (c : Nat), birthOutcome skip sizes = some c →
    c ≤ sizes.countP fun s => decide (2 ≤ s)
  | [], _, c, h => by simp [birthOutcome] at h; omega
  | s :: rest, skip, c, h => by
    rw [birthOutcome] at h
    rw [List.countP_cons]
    split at h
    · next h2 =>
      split at h
      · cases h
      · obtain ⟨c', hc, rfl⟩ := Option.map_eq_some_iff.1 h
        have := birthOutcome_le rest true c' hc
        rw [if_pos (by simp; omega)]; omega
    · have := birthOutcome_le rest false c h
      omega

/-- **C30.** The number found is never more than the number of values that occur more than once. -/
theorem C30_at_most (rands : List UInt) (k : Nat) (h : birthSample rands = .ok k) :
    k ≤ repeated (spacings 0 (sortUint rands)) := by
  obtain ⟨blks, hb, hp, _, he⟩ := C30_outcome rands
  rw [he] at h
  rw [repeated_perm hp, repeated_expand blks hb]
  cases ho : birthOutcome false (blks.map Prod.snd) with
  | none => rw [ho] at h; cases h
  | some c =>
    rw [ho] at h
    injection h with h
    rw [← h]; exact birthOutcome_le _ _ _ ho

/-- Numbers of occurrences for which the count is right: nothing that occurs exactly twice follows something that occurs
more than once. -/
def Separated (sizes : List Nat) : Prop := sizes.IsChain (fun s t => 2 ≤ s → t ≠ 2)

theorem birthOutcome_separated : ∀ (sizes : List Nat) (skip : Bool), Separated sizes →
    (skip = true → ∀ t ∈ sizes.head?, t ≠ 2) →
    birthOutcome skip sizes = if ∃ s ∈ sizes.getLast?, 2 ≤ s then none else some (sizes.countP fun s => decide (2 ≤ s))
  | [], _, _, _ => by simp [birthOutcome]
  | s :: rest, skip, hs, hk => by
    have hs' : Separated rest := hs.of_cons
    have hk' : 2 ≤ s → ∀ t ∈ rest.head?, t ≠ 2 := by
      intro h2 t ht
      match rest, hs, ht with
      | r :: rest, hs, ht =>
        simp only [List.head?_cons, Option.mem_some] at ht
        rw [← ht]
        exact (List.isChain_cons_cons.1 hs).1 h2
    have h2iff : 2 ≤ s - skip.toNat ↔ 2 ≤ s := by
      cases skip with
      | false => simp
      | true => have := hk rfl s (by simp); simp; omega
    rw [birthOutcome, List.countP_cons]
    by_cases h2 : 2 ≤ s
    · rw [if_pos (h2iff.2 h2)]
      by_cases hr : rest = []
      · rw [if_pos hr, hr, if_pos ⟨s, by simp, h2⟩]
      · rw [if_neg hr, birthOutcome_separated rest true hs' (fun _ => hk' h2)]
        have hlast : (s :: rest).getLast? = rest.getLast? := by
          match rest, hr with
          | r :: rest, _ => rw [List.getLast?_cons_cons]
        rw [hlast, if_pos (show decide (2 ≤ s) = true by simpa using h2)]
        split <;> rfl
    · rw [if_neg (fun h => h2 (h2iff.1 h)), birthOutcome_separated rest false hs' (by simp),
        if_neg (show ¬ decide (2 ≤ s) = true by simpa using h2), Nat.add_zero]
      by_cases hr : rest = []
      · subst hr; simp; omega
      · have hlast : (s :: rest).getLast? = rest.getLast? := by
          match rest, hr with
          | r :: rest, _ => rw [List.getLast?_cons_cons]
        rw [hlast]

/-- **C30.** The count is the number of values that occur more than once, if nothing that occurs exactly twice follows
(in order of size) something that occurs more than once, and the largest value occurs only once; if the largest value
occurs more than once the loop reads beyond the end of the array. -/
theorem C30_count (rands : List UInt) :
    ∃ blks, BlocksOk blks ∧ (spacings 0 (sortUint rands)).Perm (expand blks) ∧ (Separated (blks.map Prod.snd) →
      birthSample rands = if ∃ s ∈ (blks.map Prod.snd).getLast?, 2 ≤ s then .ub
        else .ok (repeated (spacings 0 (sortUint rands)))) := by
  obtain ⟨blks, hb, hp, _, he⟩ := C30_outcome rands
  refine ⟨blks, hb, hp, fun hs => ?_⟩
  rw [he, birthOutcome_separated _ false hs (by simp), repeated_perm hp, repeated_expand blks hb]
  split <;> simp_all

/-- **C30.** The spacings are the differences of neighbours in the sorted list, the first being the smallest birthday, and
add up to the largest. -/
theorem C30_spacings : ∀ (l : List UInt) (p : UInt), (∀ x ∈ l, p.toNat ≤ x.toNat) → l.Pairwise (fun a b => a.toNat ≤ b.toNat) →
    ∀ i < l.length, ((spacings p l).getD i 0).toNat + ((p :: l).getD i 0).toNat = (l.getD i 0).toNat
  | [], _, _, _, i, hi => by simp at hi
  | x :: l, p, hp, hl, i, hi => by
    have hx := hp x (by simp)
    cases i with
    | zero =>
      simp only [spacings, List.getD_cons_zero]
      rw [BitVec.toNat_sub_of_le (by rw [BitVec.le_def]; exact hx)]
      omega
    | succ i =>
      have := C30_spacings l x (List.pairwise_cons.1 hl).1 (List.pairwise_cons.1 hl).2 i (by simpa using hi)
      simp only [spacings, List.getD_cons_succ]
      exact this

/-- A sample whose spacings 1 and 2 both occur twice, and only one of them is counted. -/
theorem C30_undercount : birthSample [1, 2, 4, 6, 11] = .ok 1 ∧ repeated (spacings 0 (sortUint [1, 2, 4, 6, 11])) = 2 := by
  have h1 : sortUint [1, 2, 4, 6, 11] = [1, 2, 4, 6, 11] := by
    simp [sortUint, List.mergeSort, List.MergeSort.Internal.splitInTwo, List.merge]
  have h2 : sortUint (spacings 0 [1, 2, 4, 6, 11]) = [1, 1, 2, 2, 5] := by
    have : spacings 0 [1, 2, 4, 6, 11] = [1, 1, 2, 2, 5] := by decide
    rw [this]
    simp [sortUint, List.mergeSort, List.MergeSort.Internal.splitInTwo, List.merge]
  rw [birthSample, h1, h2]
  decide +kernel

/-- A sample whose largest spacing occurs twice: the loop reads one element beyond the end. -/
theorem C30_overrun : birthSample [1, 6, 11] = .ub := by
  have h1 : sortUint [1, 6, 11] = [1, 6, 11] := by
    simp [sortUint, List.mergeSort, List.MergeSort.Internal.splitInTwo, List.merge]
  have h2 : sortUint (spacings 0 [1, 6, 11]) = [1, 5, 5] := by
    have : spacings 0 [1, 6, 11] = [1, 5, 5] := by decide
    rw [this]
    simp [sortUint, List.mergeSort, List.MergeSort.Internal.splitInTwo, List.merge]
  rw [birthSample, h1, h2]
  decide +kernel

/-- **C30.** If no sample reads beyond the end, sample `t` uses the draws `nms*t, ..., nms*t + nms-1` and is counted in
the class of its result, if there is one. -/
theorem C30_tally (src : Src) (nms kmax : Nat) (ks : Nat → Nat) : ∀ n,
    (∀ t < n, birthSample ((List.range nms).map fun i => src (nms * t + i)) = .ok (ks t)) →
    ∃ js, birthdays src nms n 0 (List.replicate kmax 0) = .ok js ∧ js.length = kmax ∧
      ∀ c < kmax, js.getD c 0 = (List.range n).countP fun t => decide (ks t = c) := by
  intro n h
  have key : ∀ todo t (js : List Nat), t + todo = n → js.length = kmax →
      (∀ c < kmax, js.getD c 0 = (List.range t).countP fun t => decide (ks t = c)) →
      ∃ js', birthdays src nms todo (nms * t) js = .ok js' ∧ js'.length = kmax ∧
        ∀ c < kmax, js'.getD c 0 = (List.range n).countP fun t => decide (ks t = c) := by
    intro todo
    induction todo with
    | zero => intro t js ht hl hc; rw [Nat.add_zero] at ht; subst ht; exact ⟨js, rfl, hl, hc⟩
    | succ todo ih =>
      intro t js ht hl hc
      rw [birthdays, h t (by omega), Res.bind_ok, show nms * t + nms = nms * (t + 1) from by ring]
      by_cases hk : ks t < js.length
      · rw [if_pos hk, bump_ok hk, Res.bind_ok]
        apply ih (t + 1) _ (by omega) (by rw [List.length_set, hl])
        intro c hc'
        rw [getD_set _ _ _ _ hk, List.range_succ (n := t), List.countP_append, List.countP_singleton, ← hc c hc']
        by_cases e : c = ks t
        · rw [if_pos e, if_pos (by simp [e]), e]
        · rw [if_neg e, if_neg (by simpa using fun h => e h.symm), Nat.add_zero]
      · rw [if_neg hk, Res.bind_ok]
        apply ih (t + 1) _ (by omega) hl
        intro c hc'
        rw [List.range_succ (n := t), List.countP_append, List.countP_singleton, ← hc c hc', if_neg (by simp; omega), Nat.add_zero]
  exact key n 0 _ (by omega) (by simp) (fun c hc => by simp [List.getD, List.getElem?_replicate, hc])

end Dh
