import Mathlib.Algebra.BigOperators.Intervals
import Mathlib.Tactic.Ring
import Mathlib.Data.List.GetD
import Verif.Model.Rngav
import Verif.Props.Countx
/-
C136: the program of rngav.c.
-/
namespace Dh

namespace Spec

/-- The state after `n` numbers. -/
def afterAv (i j k n : Nat) (x : RanCtx) : RanCtx := (fun x => (ranvalAv i j k x).2)^[n] x

/-- The state with bit `b % 32` of word `b / 32` changed; where this is bit 31, the bits of `v`. -/
def touch (v : BitVec 64) (b : Nat) (x : RanCtx) : RanCtx :=
  let m := if b % 32 = 31 then v else BitVec.twoPow 64 (b % 32)
  match b / 32 with
  | 0 => { x with a := x.a ^^^ m }
  | 1 => { x with b := x.b ^^^ m }
  | 2 => { x with c := x.c ^^^ m }
  | _ => { x with d := x.d ^^^ m }

/-- In which bits the fourth number from here on differs if bit `b` is changed. -/
def avalanche (i j k : Nat) (v : BitVec 64) (b : Nat) (x : RanCtx) : BitVec 64 :=
  (ranvalAv i j k (afterAv i j k 3 x)).1 ^^^ (ranvalAv i j k (afterAv i j k 3 (touch v b x))).1

/-- The number of ones among the lowest 32 bits. -/
def ones32 (h : BitVec 64) : Nat := (List.range 32).countP fun i => h.getLsbD i

/-- The sum of `f` over the trials of the driver for bucket `b` up to the time when it has made `2^n` trials per bucket. -/
def trialSum (i j k : Nat) (v : BitVec 64) (f : BitVec 64 → Nat) (b n : Nat) : Nat :=
  let at' := fun p => f (avalanche i j k v b (afterAv i j k p (raninitAv i j k 0)))
  ∑ t ∈ Finset.range 64, at' (4 * (b * 64 + t)) + ∑ m ∈ Finset.Ico 6 n, ∑ t ∈ Finset.range (2 ^ m), at' (512 * 2 ^ m + 4 * (b * 2 ^ m + t))

end Spec

open Spec

theorem countAv_ones (h : BitVec 64) : countAv h = BitVec.ofNat 64 (ones32 h) := by
  apply BitVec.eq_of_toNat_eq
  rw [countAv, fold_ones, BitVec.toNat_ofNat, ones32, Nat.mod_eq_of_lt]
  have := List.countP_le_length (p := fun i => h.getLsbD i) (l := List.range 32)
  rw [List.length_range] at this
  omega

theorem countAv_edges (h : BitVec 64) : countAv (h ^^^ (h <<< 1)) = BitVec.ofNat 64 (edges h) := by
  apply BitVec.eq_of_toNat_eq
  have e : countAv (h ^^^ (h <<< 1)) = countCx h := rfl
  rw [e, C132_count, BitVec.toNat_ofNat, Nat.mod_eq_of_lt]
  have := edges_le h
  omega

theorem afterAv_add (i j k m n : Nat) (x : RanCtx) : afterAv i j k m (afterAv i j k n x) = afterAv i j k (m + n) x := by
  rw [afterAv, afterAv, afterAv, Function.iterate_add_apply]

/-- C136: the generator is reversible for all rotations, so it permutes its states and seeds lead to different states; the reverse in the source (which is not
compiled) is another function. -/
theorem C136_reversible (i j k : Nat) : Function.Bijective (fun x => (ranvalAv i j k x).2) ∧ Function.Injective (raninitAv i j k) := by
  have hl : Function.LeftInverse (fun x : RanCtx =>
      (⟨x.d - x.a + rotCx (x.a ^^^ rotCx (x.b - rotCx (x.c - (x.d - x.a)) k) j) i, x.a ^^^ rotCx (x.b - rotCx (x.c - (x.d - x.a)) k) j,
        x.b - rotCx (x.c - (x.d - x.a)) k, x.c - (x.d - x.a)⟩ : RanCtx)) (fun x => (ranvalAv i j k x).2) := by
    rintro ⟨a, b, c, d⟩
    simp only [ranvalAv]
    have h1 : ∀ e a' : BitVec 64, e + a' - a' = e := fun e a' => BitVec.add_sub_cancel e a'
    have h3 : ∀ u v : BitVec 64, u ^^^ v ^^^ v = u := fun u v => by rw [BitVec.xor_assoc, BitVec.xor_self, BitVec.xor_zero]
    have h4 : ∀ u v : BitVec 64, u - v + v = u := fun u v => BitVec.sub_add_cancel u v
    simp only [h1, h3, h4]
  have hr : Function.RightInverse (fun x : RanCtx =>
      (⟨x.d - x.a + rotCx (x.a ^^^ rotCx (x.b - rotCx (x.c - (x.d - x.a)) k) j) i, x.a ^^^ rotCx (x.b - rotCx (x.c - (x.d - x.a)) k) j,
        x.b - rotCx (x.c - (x.d - x.a)) k, x.c - (x.d - x.a)⟩ : RanCtx)) (fun x => (ranvalAv i j k x).2) := by
    rintro ⟨a, b, c, d⟩
    simp only [ranvalAv]
    have h1 : ∀ e a' : BitVec 64, e + a' - a' = e := fun e a' => BitVec.add_sub_cancel e a'
    have h3 : ∀ u v : BitVec 64, u ^^^ v ^^^ v = u := fun u v => by rw [BitVec.xor_assoc, BitVec.xor_self, BitVec.xor_zero]
    have h4 : ∀ u v : BitVec 64, u - v + v = u := fun u v => BitVec.sub_add_cancel u v
    simp only [h1, h3, h4]
  refine ⟨⟨hl.injective, hr.surjective⟩, fun s t h => ?_⟩
  have := hl.injective.iterate 20 h
  injection this with _ _ _ h
  have h4 : ∀ u v : BitVec 64, u - v + v = u := fun u v => BitVec.sub_add_cancel u v
  rw [← h4 s 0xf1ea5eed, h, h4]

/-- C136: the reverse in the source is the reverse of the step with the rotations by `32 - i`, `32 - j` and `32 - k`, not of the step with `i`, `j` and `k`. -/
theorem C136_reverse (i j k : Nat) :
    Function.LeftInverse (unranvalAv i j k) (fun x => (ranvalAv (32 - i) (32 - j) (32 - k) x).2) ∧
    Function.RightInverse (unranvalAv i j k) (fun x => (ranvalAv (32 - i) (32 - j) (32 - k) x).2) := by
  have h1 : ∀ e a' : BitVec 64, e + a' - a' = e := fun e a' => BitVec.add_sub_cancel e a'
  have h3 : ∀ u v : BitVec 64, u ^^^ v ^^^ v = u := fun u v => by rw [BitVec.xor_assoc, BitVec.xor_self, BitVec.xor_zero]
  have h4 : ∀ u v : BitVec 64, u - v + v = u := fun u v => BitVec.sub_add_cancel u v
  constructor
  · rintro ⟨a, b, c, d⟩
    simp only [ranvalAv, unranvalAv, h1, h3, h4]
  · rintro ⟨a, b, c, d⟩
    simp only [ranvalAv, unranvalAv, h1, h3, h4]

/-- With rotations by 16 the two agree. -/
example : unranvalAv 16 16 16 (ranvalAv 16 16 16 ⟨1, 2, 3, 4⟩).2 = ⟨1, 2, 3, 4⟩ := by decide

/-- C136: for rotations by 9, 16 and 24, say, the reverse in the source does not lead back. -/
theorem C136_reverse_wrong : ∃ x, unranvalAv 9 16 24 (ranvalAv 9 16 24 x).2 ≠ x := ⟨⟨0, 1, 2, 3⟩, by decide⟩

theorem flipAv_eq (v : BitVec 64) (b : Nat) (hb : b < 128) (x : RanCtx) : flipAv (.ok v) b x = .ok (touch v b x) := by
  have h1 : ∀ n, n < 32 → oneAv (.ok v) n = .ok (if n = 31 then v else BitVec.twoPow 64 n) := by
    intro n hn
    rw [oneAv]
    by_cases h : n < 31
    · rw [if_pos h, if_neg (show ¬ n = 31 by omega)]
      rfl
    · rw [if_neg h, if_pos (show n = 31 by omega), if_pos (show n = 31 by omega)]
  rw [flipAv, touch]
  rcases (by omega : b < 32 ∨ (32 ≤ b ∧ b < 64) ∨ (64 ≤ b ∧ b < 96) ∨ 96 ≤ b) with h | h | h | h
  · rw [if_pos h, h1 b h, Res.bind_ok, show b / 32 = 0 by omega, show b % 32 = b by omega]
    rfl
  · rw [if_neg (show ¬ b < 32 by omega), if_pos h.2, h1 _ (by omega), Res.bind_ok, show b / 32 = 1 by omega, show b % 32 = b - 32 by omega]
    rfl
  · rw [if_neg (show ¬ b < 32 by omega), if_neg (show ¬ b < 64 by omega), if_pos h.2, h1 _ (by omega), Res.bind_ok, show b / 32 = 2 by omega,
      show b % 32 = b - 64 by omega]
    rfl
  · rw [if_neg (show ¬ b < 32 by omega), if_neg (show ¬ b < 64 by omega), if_neg (show ¬ b < 96 by omega), h1 _ (by omega), Res.bind_ok,
      show b / 32 = 3 by omega, show b % 32 = b - 96 by omega]
    rfl

theorem trialsAv_eq (ri rj rk : Nat) (v : BitVec 64) (b : Nat) (hb : b < 128) : ∀ (todo : Nat) (x : RanCtx) (data data2 : List (BitVec 64)),
    data.length = 128 → data2.length = 128 → trialsAv ri rj rk (.ok v) b todo x data data2 = .ok (afterAv ri rj rk (4 * todo) x,
      data.set b (data.getD b 0 + BitVec.ofNat 64 (∑ t ∈ Finset.range todo, ones32 (avalanche ri rj rk v b (afterAv ri rj rk (4 * t) x)))),
      data2.set b (data2.getD b 0 + BitVec.ofNat 64 (∑ t ∈ Finset.range todo, edges (avalanche ri rj rk v b (afterAv ri rj rk (4 * t) x))))) := by
  intro todo
  induction todo with
  | zero =>
    intro x data data2 h h2
    rw [trialsAv, Finset.sum_range_zero, Finset.sum_range_zero, BitVec.add_zero, BitVec.add_zero, List.getD_eq_getElem _ _ (by omega), List.getD_eq_getElem _ _ (by omega),
      List.set_getElem_self, List.set_getElem_self]
    rfl
  | succ todo ih =>
    intro x data data2 h h2
    have hp : pairAv ri rj rk 4 x (touch v b x) 0 = (avalanche ri rj rk v b x, afterAv ri rj rk 4 x) := rfl
    have hset : ∀ u, wr data b u = .ok (data.set b u) := fun u => by rw [wr, if_pos (by omega)]
    have hset2 : ∀ u, wr data2 b u = .ok (data2.set b u) := fun u => by rw [wr, if_pos (by omega)]
    rw [trialsAv, flipAv_eq v b hb, Res.bind_ok, hp]
    simp only []
    rw [rd_ok (show b < data.length by omega), Res.bind_ok, hset, Res.bind_ok, rd_ok (show b < data2.length by omega), Res.bind_ok, hset2, Res.bind_ok,
      ih _ _ _ (by rw [List.length_set, h]) (by rw [List.length_set, h2]), List.set_set, List.set_set, afterAv_add, countAv_ones, countAv_edges]
    have hs : ∀ f : BitVec 64 → Nat, ∑ t ∈ Finset.range (todo + 1), f (avalanche ri rj rk v b (afterAv ri rj rk (4 * t) x)) =
        f (avalanche ri rj rk v b x) + ∑ t ∈ Finset.range todo, f (avalanche ri rj rk v b (afterAv ri rj rk (4 * t) (afterAv ri rj rk 4 x))) := by
      intro f
      rw [Finset.sum_range_succ', Nat.add_comm]
      congr 1
    rw [hs, hs, BitVec.ofNat_add, BitVec.ofNat_add]
    have hg : ∀ (l : List (BitVec 64)) (u : BitVec 64), l.length = 128 → (l.set b u).getD b 0 = u := fun l u hl => by
      rw [List.getD_eq_getElem _ _ (by rw [List.length_set]; omega), List.getElem_set_self]
    rw [hg _ _ h, hg _ _ h2, BitVec.add_assoc, BitVec.add_assoc, List.getD_eq_getElem _ _ (by omega), List.getD_eq_getElem _ _ (by omega)]
    rfl

theorem bucketsAv_eq (ri rj rk : Nat) (v : BitVec 64) (len : Nat) : ∀ (todo : Nat), todo ≤ 128 → ∀ (x : RanCtx) (data data2 : List (BitVec 64)),
    data.length = 128 → data2.length = 128 → ∃ d d2, bucketsAv ri rj rk (.ok v) len todo x data data2 = .ok (afterAv ri rj rk (4 * len * todo) x, d, d2) ∧
      d.length = 128 ∧ d2.length = 128 ∧
      (∀ b, d.getD b 0 = if 128 - todo ≤ b ∧ b < 128 then data.getD b 0 + BitVec.ofNat 64
        (∑ t ∈ Finset.range len, ones32 (avalanche ri rj rk v b (afterAv ri rj rk (4 * ((b - (128 - todo)) * len + t)) x))) else data.getD b 0) ∧
      ∀ b, d2.getD b 0 = if 128 - todo ≤ b ∧ b < 128 then data2.getD b 0 + BitVec.ofNat 64
        (∑ t ∈ Finset.range len, edges (avalanche ri rj rk v b (afterAv ri rj rk (4 * ((b - (128 - todo)) * len + t)) x))) else data2.getD b 0 := by
  intro todo
  induction todo with
  | zero =>
    intro _ x data data2 h h2
    refine ⟨data, data2, rfl, h, h2, fun b => ?_, fun b => ?_⟩ <;> rw [if_neg (by omega)]
  | succ todo ih =>
    intro hle x data data2 h h2
    obtain ⟨d, d2, e, l, l2, g, g2⟩ := ih (by omega) (afterAv ri rj rk (4 * len) x)
      (data.set (128 - (todo + 1)) (data.getD (128 - (todo + 1)) 0 + BitVec.ofNat 64 (∑ t ∈ Finset.range len,
        ones32 (avalanche ri rj rk v (128 - (todo + 1)) (afterAv ri rj rk (4 * t) x)))))
      (data2.set (128 - (todo + 1)) (data2.getD (128 - (todo + 1)) 0 + BitVec.ofNat 64 (∑ t ∈ Finset.range len,
        edges (avalanche ri rj rk v (128 - (todo + 1)) (afterAv ri rj rk (4 * t) x)))))
      (by rw [List.length_set, h]) (by rw [List.length_set, h2])
    refine ⟨d, d2, ?_, l, l2, fun b => ?_, fun b => ?_⟩
    · rw [bucketsAv, trialsAv_eq ri rj rk v _ (by omega) len x data data2 h h2, Res.bind_ok]
      refine e.trans ?_
      rw [afterAv_add, show 4 * len * todo + 4 * len = 4 * len * (todo + 1) by ring]
    · rw [g b]
      rcases (by omega : b < 128 - (todo + 1) ∨ b = 128 - (todo + 1) ∨ (128 - todo ≤ b ∧ b < 128) ∨ 128 ≤ b) with hb | hb | hb | hb
      · rw [if_neg (by omega), if_neg (by omega), List.getD_eq_getElem?_getD, List.getElem?_set_ne (by omega), ← List.getD_eq_getElem?_getD]
      · rw [if_neg (by omega), if_pos (by omega), ← hb, Nat.sub_self, Nat.zero_mul, List.getD_eq_getElem _ _ (by rw [List.length_set]; omega), List.getElem_set_self]
        simp only [Nat.zero_add]
      · rw [if_pos hb, if_pos (by omega), List.getD_eq_getElem?_getD, List.getElem?_set_ne (by omega), ← List.getD_eq_getElem?_getD]
        congr 2
        refine Finset.sum_congr rfl fun t _ => ?_
        rw [afterAv_add, show b - (128 - (todo + 1)) = b - (128 - todo) + 1 by omega]
        congr 3
        ring
      · rw [if_neg (by omega), if_neg (by omega), List.getD_eq_getElem?_getD, List.getElem?_set_ne (by omega), ← List.getD_eq_getElem?_getD]
    · rw [g2 b]
      rcases (by omega : b < 128 - (todo + 1) ∨ b = 128 - (todo + 1) ∨ (128 - todo ≤ b ∧ b < 128) ∨ 128 ≤ b) with hb | hb | hb | hb
      · rw [if_neg (by omega), if_neg (by omega), List.getD_eq_getElem?_getD, List.getElem?_set_ne (by omega), ← List.getD_eq_getElem?_getD]
      · rw [if_neg (by omega), if_pos (by omega), ← hb, Nat.sub_self, Nat.zero_mul, List.getD_eq_getElem _ _ (by rw [List.length_set]; omega), List.getElem_set_self]
        simp only [Nat.zero_add]
      · rw [if_pos hb, if_pos (by omega), List.getD_eq_getElem?_getD, List.getElem?_set_ne (by omega), ← List.getD_eq_getElem?_getD]
        congr 2
        refine Finset.sum_congr rfl fun t _ => ?_
        rw [afterAv_add, show b - (128 - (todo + 1)) = b - (128 - todo) + 1 by omega]
        congr 3
        ring
      · rw [if_neg (by omega), if_neg (by omega), List.getD_eq_getElem?_getD, List.getElem?_set_ne (by omega), ← List.getD_eq_getElem?_getD]

/-- C136: `gather` adds, for each of the 128 bits of the state and `len` states each, four numbers apart, in how many of 32 bits the fourth number from there
differs when this bit is changed, and the same for the Gray code of the difference.  No pair of trials begins in the same state of the sequence. -/
theorem C136_gather (ri rj rk : Nat) (v : BitVec 64) (x : RanCtx) (data data2 : List (BitVec 64)) (h : data.length = 128) (h2 : data2.length = 128) (len : Nat) :
    ∃ d d2, gatherAv ri rj rk (.ok v) x data data2 len = .ok (afterAv ri rj rk (512 * len) x, d, d2) ∧ d.length = 128 ∧ d2.length = 128 ∧ ∀ b < 128,
      d.getD b 0 = data.getD b 0 + BitVec.ofNat 64 (∑ t ∈ Finset.range len, ones32 (avalanche ri rj rk v b (afterAv ri rj rk (4 * (b * len + t)) x))) ∧
      d2.getD b 0 = data2.getD b 0 + BitVec.ofNat 64 (∑ t ∈ Finset.range len, edges (avalanche ri rj rk v b (afterAv ri rj rk (4 * (b * len + t)) x))) := by
  obtain ⟨d, d2, e, l, l2, g, g2⟩ := bucketsAv_eq ri rj rk v len 128 le_rfl x data data2 h h2
  refine ⟨d, d2, ?_, l, l2, fun b hb => ⟨?_, ?_⟩⟩
  · rw [gatherAv, e, show 4 * len * 128 = 512 * len by ring]
  · rw [g b, if_pos (by omega)]
    rfl
  · rw [g2 b, if_pos (by omega)]
    rfl

/-- C136: by the standard, `gather` is undefined as soon as a bit 31 is to be changed. -/
theorem C136_undefined (ri rj rk : Nat) (x : RanCtx) (data data2 : List (BitVec 64)) (h : data.length = 128) (h2 : data2.length = 128) (len : Nat) (hl : 0 < len) :
    gatherAv ri rj rk .ub x data data2 len = .ub := by
  have key : ∀ n, 128 - (97 + n) = 31 - n := fun n => by omega
  have hub : ∀ b < 32, b ≠ 31 → ∀ v, flipAv .ub b = flipAv (.ok v) b := by
    intro b hb h31 v
    funext y
    rw [flipAv, flipAv, if_pos hb, if_pos hb, oneAv, oneAv, if_pos (show b < 31 by omega), if_pos (show b < 31 by omega)]
  have htr : ∀ b < 32, b ≠ 31 → ∀ todo x data data2, trialsAv ri rj rk .ub b todo x data data2 = trialsAv ri rj rk (.ok 0) b todo x data data2 := by
    intro b hb h31 todo
    induction todo with
    | zero => intro x data data2; rfl
    | succ todo ih =>
      intro x data data2
      rw [trialsAv, trialsAv, hub b hb h31 0]
      simp only [ih]
  have main : ∀ n ≤ 31, ∀ x data data2, data.length = 128 → data2.length = 128 → bucketsAv ri rj rk .ub len (97 + n) x data data2 = .ub := by
    intro n
    induction n with
    | zero =>
      intro _ x data data2 h h2
      rw [bucketsAv, show 128 - (96 + 1) = 31 from rfl]
      obtain ⟨l', rfl⟩ : ∃ l', len = l' + 1 := ⟨len - 1, by omega⟩
      rfl
    | succ n ih =>
      intro hn x data data2 h h2
      rw [show 97 + (n + 1) = 97 + n + 1 by omega, bucketsAv, htr _ (by omega) (by omega), trialsAv_eq ri rj rk 0 _ (by omega) _ _ _ _ h h2, Res.bind_ok]
      exact ih (by omega) _ _ _ (by rw [List.length_set, h]) (by rw [List.length_set, h2])
  exact main 31 le_rfl x data data2 h h2

theorem lowerAv_lt (w c : ℝ) (t : BitVec 64) : c < lowerAv w t ↔ c < w ∧ c < (t.toNat : ℝ) := by
  rw [lowerAv]
  split_ifs with h
  · exact ⟨fun hc => ⟨hc.trans h, hc⟩, fun hc => hc.2⟩
  · exact ⟨fun hc => ⟨hc, hc.trans_le (not_lt.1 h)⟩, fun hc => hc.1⟩

theorem sub32_lt (c : ℝ) (hc : 32 ≤ c) (t : BitVec 64) (ht : t.toNat < 2 ^ 63) : c < (t.toNat : ℝ) → c < ((32 - t).toNat : ℝ) := by
  intro h
  have h32 : 32 < t.toNat := by exact_mod_cast hc.trans_lt h
  have e : (32 - t).toNat = 2 ^ 64 + 32 - t.toNat := by
    rw [BitVec.toNat_sub, show (32 : BitVec 64).toNat = 32 from rfl]
    omega
  refine h.trans_le ?_
  rw [e]
  exact_mod_cast (by omega : t.toNat ≤ 2 ^ 64 + 32 - t.toNat)

theorem worstAv_eq (data data2 : List (BitVec 64)) (h : data.length = 128) (h2 : data2.length = 128) (hd : ∀ b, (data.getD b 0).toNat < 2 ^ 63)
    (hd2 : ∀ b, (data2.getD b 0).toNat < 2 ^ 63) (c : ℝ) (hc : 32 ≤ c) : ∀ todo, todo ≤ 128 → ∀ w, ∃ w', worstAv data data2 todo w = .ok w' ∧
      (c < w' ↔ c < w ∧ ∀ b, 128 - todo ≤ b → b < 128 → c < ((data.getD b 0).toNat : ℝ) ∧ c < ((data2.getD b 0).toNat : ℝ)) := by
  intro todo
  induction todo with
  | zero =>
    intro _ w
    refine ⟨w, rfl, fun hw => ⟨hw, fun b hb hb' => absurd hb' (by omega)⟩, fun hw => hw.1⟩
  | succ todo ih =>
    intro hle w
    have e1 := rd_ok (show 128 - (todo + 1) < data.length by omega)
    have e2 := rd_ok (show 128 - (todo + 1) < data2.length by omega)
    rw [← List.getD_eq_getElem (d := 0)] at e1 e2
    obtain ⟨w', hw, hiff⟩ := ih (by omega) (lowerAv (lowerAv (lowerAv (lowerAv w (data.getD (128 - (todo + 1)) 0)) (32 - data.getD (128 - (todo + 1)) 0))
      (data2.getD (128 - (todo + 1)) 0)) (32 - data2.getD (128 - (todo + 1)) 0))
    refine ⟨w', ?_, ?_⟩
    · rw [worstAv, e1, Res.bind_ok, e2, Res.bind_ok, hw]
    · rw [hiff, lowerAv_lt, lowerAv_lt, lowerAv_lt, lowerAv_lt]
      constructor
      · rintro ⟨⟨⟨⟨⟨hw, a1⟩, -⟩, a2⟩, -⟩, hall⟩
        refine ⟨hw, fun b hb hb' => ?_⟩
        by_cases hbe : b = 128 - (todo + 1)
        · rw [hbe]
          exact ⟨a1, a2⟩
        · exact hall b (by omega) hb'
      · rintro ⟨hw, hall⟩
        obtain ⟨a1, a2⟩ := hall (128 - (todo + 1)) le_rfl (by omega)
        exact ⟨⟨⟨⟨⟨hw, a1⟩, sub32_lt c hc _ (hd _) a1⟩, a2⟩, sub32_lt c hc _ (hd2 _) a2⟩, fun b hb hb' => hall b (by omega) hb'⟩

/-- C136: `report` accepts exactly if all the sums exceed 13 per trial, the second sum for bit 0 excepted.  Sums that are too large, as when every bit always
changes, are accepted: `32-data[i]` compares a sum with one trial, and wraps around. -/
theorem C136_report (data data2 : List (BitVec 64)) (h : data.length = 128) (h2 : data2.length = 128) (hd : ∀ b, (data.getD b 0).toNat < 2 ^ 63)
    (hd2 : ∀ b, (data2.getD b 0).toNat < 2 ^ 63) (len : Nat) (hl : 3 ≤ len) : ∃ r, reportAv data data2 len = .ok r ∧
      (r = true ↔ ∀ b < 128, 13 * len < (data.getD b 0).toNat ∧ (b ≠ 0 → 13 * len < (data2.getD b 0).toNat)) := by
  have hl' : (3 : ℝ) ≤ len := by exact_mod_cast hl
  obtain ⟨w', hw, hiff⟩ := worstAv_eq data data2 h h2 hd hd2 (13 * len) (by linarith) 127 (by omega) ((data.getD 0 0).toNat : ℝ)
  have e1 := rd_ok (show 0 < data.length by omega)
  rw [← List.getD_eq_getElem (d := 0)] at e1
  rw [reportAv, e1, Res.bind_ok, hw, Res.bind_ok]
  refine ⟨_, rfl, ?_⟩
  rw [decide_eq_true_iff, gt_iff_lt, lt_div_iff₀ (by linarith), hiff]
  have cast : ∀ n : Nat, (13 * (len : ℝ) < n ↔ 13 * len < n) := fun n => by
    constructor <;> intro h <;> exact_mod_cast h
  simp only [cast]
  constructor
  · rintro ⟨h0, hall⟩ b hb
    by_cases hb0 : b = 0
    · subst hb0
      exact ⟨h0, fun h => absurd rfl h⟩
    · exact ⟨(hall b (by omega) hb).1, fun _ => (hall b (by omega) hb).2⟩
  · intro hall
    exact ⟨(hall 0 (by omega)).1, fun b hb hb' => ⟨(hall b hb').1, (hall b hb').2 (by omega)⟩⟩

theorem ones32_le (h : BitVec 64) : ones32 h ≤ 32 := by
  have := List.countP_le_length (p := fun i => h.getLsbD i) (l := List.range 32)
  rwa [List.length_range] at this

theorem trialSum_succ (i j k : Nat) (v : BitVec 64) (f : BitVec 64 → Nat) (b n : Nat) (hn : 6 ≤ n) : trialSum i j k v f b (n + 1) = trialSum i j k v f b n +
    ∑ t ∈ Finset.range (2 ^ n), f (avalanche i j k v b (afterAv i j k (4 * (b * 2 ^ n + t)) (afterAv i j k (512 * 2 ^ n) (raninitAv i j k 0)))) := by
  rw [trialSum, trialSum, Finset.sum_Ico_succ_top hn, ← Nat.add_assoc]
  congr 1
  refine Finset.sum_congr rfl fun t _ => ?_
  rw [afterAv_add, Nat.add_comm]

theorem trialSum_le (i j k : Nat) (v : BitVec 64) (f : BitVec 64 → Nat) (hf : ∀ h, f h ≤ 32) (b n : Nat) (hn : 6 ≤ n) : trialSum i j k v f b n ≤ 32 * 2 ^ n := by
  induction n, hn using Nat.le_induction with
  | base =>
    rw [trialSum, Finset.Ico_self, Finset.sum_empty, Nat.add_zero]
    exact (Finset.sum_le_card_nsmul _ _ 32 fun t _ => hf _).trans (by rw [Finset.card_range]; norm_num)
  | succ n hn ih =>
    rw [trialSum_succ _ _ _ _ _ _ _ hn]
    have := (Finset.sum_le_card_nsmul (Finset.range (2 ^ n))
      (fun t => f (avalanche i j k v b (afterAv i j k (4 * (b * 2 ^ n + t)) (afterAv i j k (512 * 2 ^ n) (raninitAv i j k 0))))) 32 fun t _ => hf _)
    rw [Finset.card_range, smul_eq_mul] at this
    rw [Nat.pow_succ]
    omega

theorem driverLoopAv_eq (i j k : Nat) (v : BitVec 64) : ∀ todo ≤ 10, ∀ data data2 : List (BitVec 64), data.length = 128 → data2.length = 128 →
    (∀ b < 128, data.getD b 0 = BitVec.ofNat 64 (trialSum i j k v ones32 b (16 - todo)) ∧ data2.getD b 0 = BitVec.ofNat 64 (trialSum i j k v edges b (16 - todo))) →
    ∃ r, driverLoopAv i j k (.ok v) todo (afterAv i j k (512 * 2 ^ (16 - todo)) (raninitAv i j k 0)) data data2 = .ok r ∧
      (r = true ↔ ∀ n ≤ 16, 16 - todo < n → ∀ b < 128, 13 * 2 ^ n < trialSum i j k v ones32 b n ∧ (b ≠ 0 → 13 * 2 ^ n < trialSum i j k v edges b n)) := by
  intro todo
  induction todo with
  | zero =>
    intro _ data data2 _ _ _
    exact ⟨true, rfl, fun _ n h1 h2 => absurd h2 (by omega), fun _ => rfl⟩
  | succ todo ih =>
    intro hle data data2 h h2 hd
    obtain ⟨m, hm⟩ : ∃ m, m = 16 - (todo + 1) := ⟨_, rfl⟩
    have hm1 : 16 - todo = m + 1 := by omega
    have hm6 : 6 ≤ m := by omega
    have hm16 : m < 16 := by omega
    rw [← hm] at hd
    obtain ⟨d, d2, e, l, l2, g⟩ := C136_gather i j k v (afterAv i j k (512 * 2 ^ m) (raninitAv i j k 0)) data data2 h h2 (2 ^ m)
    have hg : ∀ b < 128, d.getD b 0 = BitVec.ofNat 64 (trialSum i j k v ones32 b (m + 1)) ∧ d2.getD b 0 = BitVec.ofNat 64 (trialSum i j k v edges b (m + 1)) := by
      intro b hb
      rw [(g b hb).1, (g b hb).2, (hd b hb).1, (hd b hb).2, trialSum_succ _ _ _ _ _ _ _ hm6, trialSum_succ _ _ _ _ _ _ _ hm6, BitVec.ofNat_add, BitVec.ofNat_add]
      exact ⟨rfl, rfl⟩
    have hpow : 32 * 2 ^ (m + 1) < 2 ^ 63 := by
      have : 2 ^ (m + 1) ≤ 2 ^ 16 := Nat.pow_le_pow_right (by norm_num) (by omega)
      omega
    have b1 := fun b => trialSum_le i j k v ones32 ones32_le b (m + 1) (by omega)
    have b2 := fun b => trialSum_le i j k v edges edges_le b (m + 1) (by omega)
    have n1 : ∀ b < 128, (d.getD b 0).toNat = trialSum i j k v ones32 b (m + 1) := fun b hb => by
      rw [(hg b hb).1, BitVec.toNat_ofNat, Nat.mod_eq_of_lt]
      have := b1 b
      omega
    have n2 : ∀ b < 128, (d2.getD b 0).toNat = trialSum i j k v edges b (m + 1) := fun b hb => by
      rw [(hg b hb).2, BitVec.toNat_ofNat, Nat.mod_eq_of_lt]
      have := b2 b
      omega
    have out : ∀ (l : List (BitVec 64)) b, l.length = 128 → ¬ b < 128 → (l.getD b 0).toNat < 2 ^ 63 := fun l b hl hb => by
      rw [List.getD_eq_default _ _ (by omega)]
      decide
    obtain ⟨r, hrep, hr⟩ := C136_report d d2 l l2 (fun b => by
      by_cases hb : b < 128
      · rw [n1 b hb]
        exact (b1 b).trans_lt hpow
      · exact out d b l hb) (fun b => by
      by_cases hb : b < 128
      · rw [n2 b hb]
        exact (b2 b).trans_lt hpow
      · exact out d2 b l2 hb) (2 ^ (m + 1)) (by
        have : 2 ^ 2 ≤ 2 ^ (m + 1) := Nat.pow_le_pow_right (by norm_num) (by omega)
        omega)
    rw [driverLoopAv]
    simp only []
    rw [← hm, e, Res.bind_ok]
    simp only []
    rw [hrep, Res.bind_ok, afterAv_add, show 512 * 2 ^ m + 512 * 2 ^ m = 512 * 2 ^ (m + 1) by ring]
    have hth : (∀ b < 128, 13 * 2 ^ (m + 1) < (d.getD b 0).toNat ∧ (b ≠ 0 → 13 * 2 ^ (m + 1) < (d2.getD b 0).toNat)) ↔
        ∀ b < 128, 13 * 2 ^ (m + 1) < trialSum i j k v ones32 b (m + 1) ∧ (b ≠ 0 → 13 * 2 ^ (m + 1) < trialSum i j k v edges b (m + 1)) :=
      forall_congr' fun b => forall_congr' fun hb => by rw [n1 b hb, n2 b hb]
    by_cases hc : ∀ b < 128, 13 * 2 ^ (m + 1) < (d.getD b 0).toNat ∧ (b ≠ 0 → 13 * 2 ^ (m + 1) < (d2.getD b 0).toNat)
    · obtain ⟨r', e', hr'⟩ := ih (by omega) d d2 l l2 (by rw [hm1]; exact hg)
      rw [if_pos (hr.2 hc), ← hm1, e']
      refine ⟨r', rfl, hr'.trans ?_⟩
      constructor
      · intro hall n hn hlt
        by_cases hne : n = m + 1
        · rw [hne]
          exact hth.1 hc
        · exact hall n hn (by omega)
      · intro hall n hn hlt
        exact hall n hn (by omega)
    · rw [if_neg (fun h => hc (hr.1 h))]
      refine ⟨false, rfl, fun h => absurd h Bool.false_ne_true, fun hall => absurd (hth.2 (hall (m + 1) (by omega) (by omega))) hc⟩

/-- C136: `driver` prints a line exactly if, at each of the times when 2^7, 2^8, ..., 2^16 trials have been made for each bit, on the average more than 13 of 32 bits
changed for every bit and, but for bit 0, of the Gray code. -/
theorem C136_driver (i j k : Nat) (v : BitVec 64) : ∃ r, driverAv i j k (.ok v) = .ok r ∧
    (r = true ↔ ∀ n ≤ 16, 6 < n → ∀ b < 128, 13 * 2 ^ n < trialSum i j k v ones32 b n ∧ (b ≠ 0 → 13 * 2 ^ n < trialSum i j k v edges b n)) := by
  obtain ⟨d, d2, e, l, l2, g⟩ := C136_gather i j k v (raninitAv i j k 0) (List.replicate 128 0) (List.replicate 128 0) List.length_replicate List.length_replicate (2 ^ 6)
  rw [driverAv, e, Res.bind_ok]
  have h6 : 2 ^ 6 = 64 := rfl
  have hl := driverLoopAv_eq i j k v 10 le_rfl d d2 l l2
  rw [show 16 - 10 = 6 from rfl, h6] at hl
  rw [h6] at g ⊢
  refine hl fun b hb => ?_
  have h0 : (List.replicate 128 (0 : BitVec 64)).getD b 0 = 0#64 := by
    rw [List.getD_eq_getElem?_getD, List.getElem?_replicate, if_pos hb]
    rfl
  rw [(g b hb).1, (g b hb).2, h0, BitVec.zero_add, BitVec.zero_add, trialSum, trialSum, Finset.Ico_self, Finset.sum_empty, Finset.sum_empty, Nat.add_zero, Nat.add_zero]
  constructor <;> rfl

/-- Sums of 32 for each of 128 trials, and sums of nothing for the Gray code of bit 0, are accepted. -/
example : reportAv (List.replicate 128 4096) (0 :: List.replicate 127 4096) 128 = .ok true := by
  have h1 : ∀ b : Fin 128, ((List.replicate 128 (4096 : BitVec 64)).getD b 0).toNat = 4096 := by decide +kernel
  have h2 : ∀ b : Fin 128, ((0 :: List.replicate 127 (4096 : BitVec 64)).getD b 0).toNat = if b.val = 0 then 0 else 4096 := by decide +kernel
  have g1 : ∀ b, ((List.replicate 128 (4096 : BitVec 64)).getD b 0).toNat < 2 ^ 63 := by
    intro b
    by_cases hb : b < 128
    · rw [h1 ⟨b, hb⟩]
      norm_num
    · rw [List.getD_eq_default _ _ (by rw [List.length_replicate]; omega)]
      decide
  have g2 : ∀ b, ((0 :: List.replicate 127 (4096 : BitVec 64)).getD b 0).toNat < 2 ^ 63 := by
    intro b
    by_cases hb : b < 128
    · rw [h2 ⟨b, hb⟩]
      split_ifs <;> norm_num
    · rw [List.getD_eq_default _ _ (by rw [List.length_cons, List.length_replicate]; omega)]
      decide
  obtain ⟨r, e, hr⟩ := C136_report (List.replicate 128 4096) (0 :: List.replicate 127 4096) List.length_replicate rfl g1 g2 128 (by norm_num)
  have ht : r = true := hr.2 fun b hb => by
    rw [h1 ⟨b, hb⟩, h2 ⟨b, hb⟩]
    exact ⟨by norm_num, fun h => by rw [if_neg h]; norm_num⟩
  rw [e, ht]

/-- Four trials per bit, from the state of the driver, with what GCC makes of `1<<31`: changing bit 31 of the first word changes 59 of 128 bits. -/
example : ∃ d d2, gatherAv 9 16 24 (.ok 0xffffffff80000000) (raninitAv 9 16 24 0) (List.replicate 128 0) (List.replicate 128 0) 4 =
    .ok (afterAv 9 16 24 2048 (raninitAv 9 16 24 0), d, d2) ∧ d.getD 31 0 = 59 ∧ d2.getD 31 0 = 62 := by
  obtain ⟨d, d2, e, -, -, g⟩ := C136_gather 9 16 24 0xffffffff80000000 (raninitAv 9 16 24 0) (List.replicate 128 0) (List.replicate 128 0) List.length_replicate
    List.length_replicate 4
  have h1 : ∑ t ∈ Finset.range 4, ones32 (avalanche 9 16 24 0xffffffff80000000 31 (afterAv 9 16 24 (4 * (31 * 4 + t)) (raninitAv 9 16 24 0))) = 59 := by
    decide +kernel
  have h2 : ∑ t ∈ Finset.range 4, edges (avalanche 9 16 24 0xffffffff80000000 31 (afterAv 9 16 24 (4 * (31 * 4 + t)) (raninitAv 9 16 24 0))) = 62 := by
    decide +kernel
  have g31 := g 31 (by norm_num)
  rw [h1, h2] at g31
  exact ⟨d, d2, e, g31.1, g31.2⟩

end Dh
