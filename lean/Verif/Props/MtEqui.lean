import Mathlib.Data.Fintype.Pi
import Mathlib.Data.Fintype.BigOperators
import Verif.Props.MtPeriod
/-
C106: the words of R's Mersenne Twister are equidistributed in 623 dimensions.
-/
namespace Dh
open Spec
open scoped Classical

theorem word_finite (n : Nat) : Finite (BitVec n) :=
  Finite.of_injective (fun u : BitVec n => u.toFin) fun _ _ h => BitVec.eq_of_toFin_eq h

noncomputable local instance wordFintype : Fintype UInt := @Fintype.ofFinite _ (word_finite 32)

theorem word_card : Fintype.card UInt = 2 ^ 32 := by
  have h : ∀ n, ∀ [Fintype (BitVec n)], Fintype.card (BitVec n) = 2 ^ n := fun n _ => by
    rw [Fintype.card_congr (⟨BitVec.toFin, BitVec.ofFin, fun _ => rfl, fun _ => rfl⟩ : BitVec n ≃ Fin (2 ^ n)), Fintype.card_fin]
  exact h 32

/-- What determines the words after number `n`, when `d` is 623. -/
def mtWindow (d : Nat) (y : Nat → UInt) (n : Nat) : Bool × (Fin d → UInt) := ((y n).getLsbD 31, fun i => y (n + 1 + i))

theorem mt_determined {d : Nat} (hd : d = 623) {y : Nat → UInt} (hy : Mt19937 y) {z : Nat → UInt} (hz : Mt19937 z) {m n : Nat} (h : mtWindow d y m = mtWindow d z n) (k : Nat) :
    y (m + 1 + k) = z (n + 1 + k) := by
  have ht : (y m).getLsbD 31 = (z n).getLsbD 31 := congrArg Prod.fst h
  have hw : ∀ i, i < 623 → y (m + 1 + i) = z (n + 1 + i) := fun i hi => congrFun (congrArg Prod.snd h) ⟨i, hd ▸ hi⟩
  induction k using Nat.strong_induction_on with
  | _ k ih =>
    rcases Nat.lt_or_ge k 623 with hk | hk
    · exact hw k hk
    · obtain ⟨j, rfl⟩ : ∃ j, k = j + 623 := ⟨k - 623, by omega⟩
      have e1 := ih (j + 396) (by omega)
      have e2 := ih j (by omega)
      have e3 : (y (m + j)).extractLsb' 31 1 = (z (n + j)).extractLsb' 31 1 := by
        rcases Nat.eq_zero_or_pos j with rfl | hj
        · apply BitVec.eq_of_getLsbD_eq
          intro i hi
          obtain rfl : i = 0 := by omega
          rw [BitVec.getLsbD_extractLsb', BitVec.getLsbD_extractLsb']
          simpa using ht
        · have := ih (j - 1) (by omega)
          rw [show m + 1 + (j - 1) = m + j by omega, show n + 1 + (j - 1) = n + j by omega] at this
          rw [this]
      rw [show m + 1 + (j + 623) = m + j + 624 by omega, show n + 1 + (j + 623) = n + j + 624 by omega, hy (m + j), hz (n + j), e3,
        show m + j + 397 = m + 1 + (j + 396) by omega, show n + j + 397 = n + 1 + (j + 396) by omega, e1,
        show m + j + 1 = m + 1 + j by omega, show n + j + 1 = n + 1 + j by omega, e2]

theorem mt_zero : Mt19937 (fun _ => 0) := by
  have h1 : (0 : UInt) = 0 ^^^ (((0 : UInt).extractLsb' 31 1 ++ (0 : UInt).extractLsb' 0 31 : BitVec 32) >>> 1 ^^^
    if (0 : UInt).toNat % 2 = 1 then 0x9908b0df#32 else 0#32) := by decide
  exact fun _ => h1

theorem mtWindow_inj {d : Nat} (hd : d = 623) {y : Nat → UInt} (hy : Mt19937 y) {P : Nat} (hP : LeastPeriod y P) {m n : Nat} (hm : m < P) (hn : n < P)
    (h : mtWindow d y m = mtWindow d y n) : m = n := by
  have key : ∀ m n, m ≤ n → n < P → mtWindow d y m = mtWindow d y n → m = n := by
    intro m n hmn hn h
    have h1 := (leastPeriod_shift hP (m + 1)).2 (n - m) |>.1 fun k => by
      show y (k + (n - m) + (m + 1)) = y (k + (m + 1))
      rw [show k + (n - m) + (m + 1) = n + 1 + k by omega, show k + (m + 1) = m + 1 + k by omega]
      exact (mt_determined hd hy hy h k).symm
    rcases Nat.eq_zero_or_pos (n - m) with h2 | h2
    · omega
    · have := Nat.le_of_dvd h2 h1
      omega
  rcases Nat.le_total m n with h1 | h1
  · exact key m n h1 hn h
  · exact (key n m h1 hm h.symm).symm

theorem mtWindow_ne {d : Nat} (hd : d = 623) {y : Nat → UInt} (hy : Mt19937 y) {P : Nat} (hP : LeastPeriod y P) (h1 : P ≠ 1) (n : Nat) : mtWindow d y n ≠ (false, fun _ => 0) := by
  intro h
  have hz : mtWindow d (fun _ => (0 : UInt)) 0 = (false, fun _ => 0) := rfl
  have h2 := mt_determined hd hy mt_zero (h.trans hz.symm)
  have := (leastPeriod_shift hP (n + 1)).2 1 |>.1 fun k => by
    show y (k + 1 + (n + 1)) = y (k + (n + 1))
    rw [show k + 1 + (n + 1) = n + 1 + (k + 1) by omega, show k + (n + 1) = n + 1 + k by omega, h2, h2]
  exact h1 (Nat.dvd_one.1 this)

theorem mtWindow_card (d : Nat) (hd : d = 623) (e : Nat) (he : e = 19937) : Fintype.card (Bool × (Fin d → UInt)) = 2 ^ e := by
  have h : e = 32 * d + 1 := by rw [he, hd]
  have h2 : ∀ a b c : Nat, 2 * (2 ^ a) ^ b = 2 ^ (a * b + 1) := fun a b _ => by rw [← pow_mul, ← pow_succ']
  rw [Fintype.card_prod, Fintype.card_bool, Fintype.card_fun, Fintype.card_fin, word_card, h]
  exact h2 32 d 0

/-- Every window but the zero one occurs. -/
theorem mtWindow_image {d : Nat} (hd : d = 623) {y : Nat → UInt} (hy : Mt19937 y) {P : Nat} (hP : LeastPeriod y P) (hp : P ≠ 1) (hc : Fintype.card (Bool × (Fin d → UInt)) - 1 ≤ P) :
    (Finset.range P).image (mtWindow d y) = Finset.univ.erase (false, fun _ => 0) := by
  refine Finset.eq_of_subset_of_card_le (fun s hs => ?_) ?_
  · obtain ⟨n, -, rfl⟩ := Finset.mem_image.1 hs
    exact Finset.mem_erase.2 ⟨mtWindow_ne hd hy hP hp n, Finset.mem_univ _⟩
  · rw [Finset.card_erase_of_mem (Finset.mem_univ _), Finset.card_univ, Finset.card_image_of_injOn, Finset.card_range]
    · exact hc
    intro m hm n hn h
    exact mtWindow_inj hd hy hP (Finset.mem_range.1 (Finset.mem_coe.1 hm)) (Finset.mem_range.1 (Finset.mem_coe.1 hn)) h

/-- The number of places `n` in the period where the words from `y (n + 1)` on begin with `k` given words. -/
noncomputable def mtCount (y : Nat → UInt) (P k : Nat) (w : Nat → UInt) : Nat :=
  ((Finset.range P).filter fun n => ∀ i, i < k → y (n + 1 + i) = w i).card

theorem mtCount_full {d : Nat} (hd : d = 623) {y : Nat → UInt} (hy : Mt19937 y) {P : Nat} (hP : LeastPeriod y P) (hp : P ≠ 1) (hc : Fintype.card (Bool × (Fin d → UInt)) - 1 ≤ P) (w : Nat → UInt) :
    mtCount y P d w + (if ∀ i, i < d → w i = 0 then 1 else 0) = 2 := by
  have himg : ((Finset.range P).filter fun n => ∀ i, i < d → y (n + 1 + i) = w i).image (mtWindow d y) =
      (Finset.univ.erase (false, fun _ => 0)).filter fun s : Bool × (Fin d → UInt) => ∀ i : Fin d, s.2 i = w i := by
    rw [← mtWindow_image hd hy hP hp hc, Finset.filter_image]
    congr 1
    refine Finset.filter_congr fun n _ => ?_
    exact ⟨fun h i => h i i.2, fun h i hi => h ⟨i, hi⟩⟩
  have hcard : mtCount y P d w = ((Finset.univ.erase (false, fun _ => 0)).filter fun s : Bool × (Fin d → UInt) => ∀ i : Fin d, s.2 i = w i).card := by
    rw [← himg, Finset.card_image_of_injOn]
    · rfl
    · intro m hm n hn h
      exact mtWindow_inj hd hy hP (Finset.mem_range.1 (Finset.mem_filter.1 (Finset.mem_coe.1 hm)).1)
        (Finset.mem_range.1 (Finset.mem_filter.1 (Finset.mem_coe.1 hn)).1) h
  have hset : (Finset.univ.erase (false, fun _ => 0)).filter (fun s : Bool × (Fin d → UInt) => ∀ i : Fin d, s.2 i = w i) =
      ({(false, fun i : Fin d => w i), (true, fun i : Fin d => w i)} : Finset (Bool × (Fin d → UInt))).erase (false, fun _ => 0) := by
    ext ⟨b, f⟩
    simp only [Finset.mem_filter, Finset.mem_erase, Finset.mem_univ, and_true, Finset.mem_insert, Finset.mem_singleton, Prod.mk.injEq]
    have : (∀ i : Fin d, f i = w i) ↔ f = fun i : Fin d => w i := ⟨fun h => funext h, fun h i => by rw [h]⟩
    rw [this]
    cases b <;> simp
  rw [hcard, hset]
  have h2 : ({(false, fun i : Fin d => w i), (true, fun i : Fin d => w i)} : Finset (Bool × (Fin d → UInt))).card = 2 := Finset.card_pair (by simp)
  split
  · rename_i h
    rw [Finset.card_erase_of_mem, h2]
    simp only [Finset.mem_insert, Prod.mk.injEq, true_and]
    left
    funext i
    exact (h i i.2).symm
  · rename_i h
    rw [Finset.erase_eq_of_notMem, h2]
    simp only [Finset.mem_insert, Finset.mem_singleton, Prod.mk.injEq, true_and]
    rintro (h1 | h1)
    · exact h fun i hi => (congrFun h1 ⟨i, hi⟩).symm
    · exact absurd h1.1 (by decide)

theorem mtCount_split (y : Nat → UInt) (P k : Nat) (w : Nat → UInt) : mtCount y P k w = ∑ a : UInt, mtCount y P (k + 1) (Function.update w k a) := by
  unfold mtCount
  rw [← Finset.card_biUnion]
  · congr 1
    ext n
    simp only [Finset.mem_filter, Finset.mem_biUnion, Finset.mem_univ, true_and]
    constructor
    · rintro ⟨h1, h2⟩
      refine ⟨y (n + 1 + k), h1, fun i hi => ?_⟩
      by_cases h : i = k
      · subst h; rw [Function.update_self]
      · rw [Function.update_of_ne h]; exact h2 i (by omega)
    · rintro ⟨a, h1, h2⟩
      refine ⟨h1, fun i hi => ?_⟩
      have := h2 i (by omega)
      rwa [Function.update_of_ne (by omega)] at this
  · intro a _ b _ hab
    refine Finset.disjoint_left.2 fun n ha hb => hab ?_
    have h1 := (Finset.mem_filter.1 ha).2 k (by omega)
    have h2 := (Finset.mem_filter.1 hb).2 k (by omega)
    rw [Function.update_self] at h1 h2
    rw [← h1, h2]

theorem mtCount_eq {d : Nat} (hd : d = 623) {y : Nat → UInt} (hy : Mt19937 y) {P : Nat} (hP : LeastPeriod y P) (hp : P ≠ 1) (hc : Fintype.card (Bool × (Fin d → UInt)) - 1 ≤ P) (j : Nat) :
    ∀ k w, k + j = d → mtCount y P k w + (if ∀ i, i < k → w i = 0 then 1 else 0) = 2 ^ (1 + 32 * j) := by
  induction j with
  | zero =>
    intro k w hk
    obtain rfl : k = d := by omega
    exact mtCount_full hd hy hP hp hc w
  | succ j ih =>
    intro k w hk
    have hs : ∑ a : UInt, (mtCount y P (k + 1) (Function.update w k a) + (if ∀ i, i < k + 1 → Function.update w k a i = 0 then 1 else 0)) =
        2 ^ 32 * 2 ^ (1 + 32 * j) := by
      rw [Finset.sum_congr rfl fun a _ => ih (k + 1) (Function.update w k a) (by omega), Finset.sum_const, Finset.card_univ,
        word_card, smul_eq_mul]
    have hz : ∑ a : UInt, (if ∀ i, i < k + 1 → Function.update w k a i = 0 then 1 else 0) = if ∀ i, i < k → w i = 0 then 1 else 0 := by
      rw [Finset.sum_eq_single (0 : UInt)]
      · refine if_congr ⟨fun h i hi => ?_, fun h i hi => ?_⟩ rfl rfl
        · have := h i (by omega)
          rwa [Function.update_of_ne (by omega)] at this
        · by_cases hik : i = k
          · subst hik; rw [Function.update_self]
          · rw [Function.update_of_ne hik]; exact h i (by omega)
      · intro a _ ha
        rw [if_neg]
        intro h
        have := h k (by omega)
        rw [Function.update_self] at this
        exact ha this
      · intro h; exact absurd (Finset.mem_univ _) h
    rw [Finset.sum_add_distrib, ← mtCount_split, hz] at hs
    rw [hs, ← pow_add]
    congr 1
    ring

/-- **C106.** `R_mersenne_twister`, whatever the seed: the numbers are made of words `v 0, v 1, ...` of which, in a period, any `k ≤ 623` given
words stand next to each other at exactly `2^(19937-32k)` places, except that `k` zeros stand at one place less. -/
theorem C106_mersenne_twister (rnd : ℚ → ℚ) (s : BitVec 64) : ∃ v : Nat → UInt, LeastPeriod v (2 ^ 19937 - 1) ∧
    (∀ k, k ≤ 623 → ∀ w : Nat → UInt, ((Finset.range (2 ^ 19937 - 1)).filter fun n => ∀ i, i < k → v (n + i) = w i).card +
      (if ∀ i, i < k → w i = 0 then 1 else 0) = 2 ^ (19937 - 32 * k)) ∧
    ∀ vec : List UInt, vec.length = 625 → ∃ v₀, rRngSet .mersenneTwister s vec = .ok v₀ ∧
      ∀ n, ∃ v', rUnifs rnd .mersenneTwister n v₀ = .ok ((List.range n).map (fun k => wordValue rnd (v k) (23283064365386963 / 10 ^ 26)), v') := by
  obtain ⟨x, hx, hs, h⟩ := C65_mersenne_twister rnd s
  have hP := mt_period hx (mt_seed_ne hs)
  obtain ⟨e, he⟩ : ∃ e, e = 19937 := ⟨_, rfl⟩
  obtain ⟨d, hd⟩ : ∃ d, d = 623 := ⟨_, rfl⟩
  obtain ⟨P, hPe⟩ : ∃ P, P = 2 ^ e - 1 := ⟨_, rfl⟩
  have hp : P ≠ 1 := by
    intro h1
    have h2 : 2 ^ 2 ≤ 2 ^ e := Nat.pow_le_pow_right (by norm_num) (by omega)
    omega
  have hc : Fintype.card (Bool × (Fin d → UInt)) - 1 ≤ P := by rw [mtWindow_card d hd e he, hPe]
  rw [← he] at hP ⊢
  rw [← hPe] at hP ⊢
  have hy : Mt19937 (fun n => x (n + 623)) := fun k => by
    have := hx (k + 623)
    show x (k + 624 + 623) = x (k + 397 + 623) ^^^ (((x (k + 623)).extractLsb' 31 1 ++ (x (k + 1 + 623)).extractLsb' 0 31) >>> 1 ^^^ _)
    rw [show k + 624 + 623 = k + 623 + 624 by omega, show k + 397 + 623 = k + 623 + 397 by omega, show k + 1 + 623 = k + 623 + 1 by omega]
    exact this
  have hPy : LeastPeriod (fun n => x (n + 623)) P := leastPeriod_shift hP 622
  refine ⟨_, leastPeriod_congr (leastPeriod_shift hP 623) (u := fun k => temper (x (624 + k))) fun m n => ?_, fun k hk w => ?_, h⟩
  · rw [temper_inj, show 624 + m = m + 623 + 1 by omega, show 624 + n = n + 623 + 1 by omega]
  · have hsurj : Function.Surjective temper := Finite.surjective_of_injective fun u v h => (temper_inj u v).1 h
    obtain ⟨w', hw'⟩ : ∃ w' : Nat → UInt, ∀ i, temper (w' i) = w i := ⟨fun i => (hsurj (w i)).choose, fun i => (hsurj (w i)).choose_spec⟩
    have h1 := mtCount_eq hd hy hPy hp hc (d - k) k w' (by omega)
    rw [show 1 + 32 * (d - k) = e - 32 * k by omega] at h1
    rw [← h1, mtCount]
    congr 1
    · congr 1
      refine Finset.filter_congr fun n _ => forall_congr' fun i => imp_congr_right fun _ => ?_
      rw [← hw' i, temper_inj, show 624 + (n + i) = n + 1 + i + 623 by omega]
    · refine if_congr (forall_congr' fun i => imp_congr_right fun _ => ?_) rfl rfl
      have h0 : temper 0 = 0 := by decide
      have h2 := temper_inj (w' i) 0
      rw [h0, hw' i] at h2
      exact h2

-- whatever the seed, `k` words 7 in a row come up `2^(19937-32k)` times in a period, and `k` words 0 once less
example (rnd : ℚ → ℚ) (s : BitVec 64) : ∃ v : Nat → UInt, ∀ k, 0 < k → k ≤ 623 →
    ((Finset.range (2 ^ 19937 - 1)).filter fun n => ∀ i, i < k → v (n + i) = 7).card = 2 ^ (19937 - 32 * k) ∧
    ((Finset.range (2 ^ 19937 - 1)).filter fun n => ∀ i, i < k → v (n + i) = 0).card = 2 ^ (19937 - 32 * k) - 1 := by
  obtain ⟨v, -, h, -⟩ := C106_mersenne_twister rnd s
  obtain ⟨P, hP⟩ : ∃ P, P = 2 ^ 19937 - 1 := ⟨_, rfl⟩
  rw [← hP] at h ⊢
  refine ⟨v, fun k h0 hk => ⟨?_, ?_⟩⟩
  · have h1 := h k hk fun _ => 7
    have h7 : (7 : UInt) ≠ 0 := by decide
    rw [if_neg fun hc => h7 (hc 0 h0), Nat.add_zero] at h1
    exact h1
  · have h1 := h k hk fun _ => 0
    rw [if_pos fun _ _ => rfl] at h1
    omega

end Dh
