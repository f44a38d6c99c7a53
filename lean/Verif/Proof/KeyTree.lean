import Verif.Proof.Stopping
import Verif.Props.FillTree
/-
The array of dab_filltree.c as a search tree, in terms of the list of its keys.
-/
namespace Dh
open Spec

/-- A search tree of height `h` takes all keys of the list. -/
def fits : Nat → List Nat → Bool
  | 0, l => l.isEmpty
  | _ + 1, [] => true
  | h + 1, x :: l => fits h (l.filter (· ≤ x)) && fits h (l.filter (x < ·))

/-- The place below the tree of height `h` with the keys `l` at which the key `z` belongs, if there is no room for it. -/
def endPos : Nat → List Nat → Nat → Nat
  | 0, _, _ => 0
  | _ + 1, [], _ => 0
  | h + 1, x :: l, z => if z ≤ x then endPos h (l.filter (· ≤ x)) z else 2 ^ h + endPos h (l.filter (x < ·)) z

theorem fits_nil (h : Nat) : fits h [] = true := by cases h <;> rfl

theorem fits_prefix : ∀ (h : Nat) (l l' : List Nat), fits h (l ++ l') = true → fits h l = true
  | 0, l, l', e => by
    cases l with
    | nil => rfl
    | cons x l => simp [fits] at e
  | h + 1, [], _, _ => rfl
  | h + 1, x :: l, l', e => by
    rw [List.cons_append, fits, List.filter_append, List.filter_append, Bool.and_eq_true] at e
    rw [fits, fits_prefix h _ _ e.1, fits_prefix h _ _ e.2]
    rfl

theorem fits_length : ∀ (h : Nat) (l : List Nat), fits h l = true → l.length + 1 ≤ 2 ^ h
  | 0, l, e => by
    cases l with
    | nil => simp
    | cons x l => simp [fits] at e
  | h + 1, [], _ => by simpa using Nat.one_le_two_pow
  | h + 1, x :: l, e => by
    rw [fits, Bool.and_eq_true] at e
    have h1 := fits_length h _ e.1
    have h2 := fits_length h _ e.2
    have h3 := List.length_eq_length_filter_add (l := l) (fun y => decide (y ≤ x))
    have h4 : l.filter (fun y => !decide (y ≤ x)) = l.filter (fun y => decide (x < y)) := by
      refine List.filter_congr fun y _ => ?_
      by_cases g : y ≤ x <;> simp [g] <;> omega
    rw [h4] at h3
    rw [List.length_cons, pow_succ]
    omega

theorem endPos_lt : ∀ (h : Nat) (l : List Nat) (z : Nat), endPos h l z < 2 ^ h
  | 0, _, _ => by simp [endPos]
  | _ + 1, [], _ => by simp [endPos]
  | h + 1, x :: l, z => by
    have h1 := endPos_lt h (l.filter (· ≤ x)) z
    have h2 := endPos_lt h (l.filter (x < ·)) z
    rw [endPos, pow_succ]
    split <;> omega

/-- The part of the array around node `i`, with `h` levels of nodes, holds the keys `l`. -/
def TreeHolds (a : List Nat) : (h i : Nat) → List Nat → Prop
  | 0, _, _ => True
  | h + 1, i, [] => ∀ j, i + 1 ≤ j + 2 ^ (h + 1) → j < i + 2 ^ (h + 1) → a.getD j 0 = 0
  | h + 1, i, x :: l => a.getD i 0 = x ∧ x ≠ 0 ∧ TreeHolds a h (i - 2 ^ h) (l.filter (· ≤ x)) ∧ TreeHolds a h (i + 2 ^ h) (l.filter (x < ·))

theorem TreeHolds.congr {a a' : List Nat} : ∀ {h i : Nat} {l : List Nat}, 2 ^ h ≤ i + 1 →
    (∀ j, i + 1 ≤ j + 2 ^ h → j < i + 2 ^ h → a'.getD j 0 = a.getD j 0) → TreeHolds a h i l → TreeHolds a' h i l
  | 0, _, _, _, _, _ => trivial
  | h + 1, i, [], hi, e, ht => fun j h1 h2 => by rw [e j h1 h2]; exact ht j h1 h2
  | h + 1, i, x :: l, hi, e, ht => by
    have hp : 0 < 2 ^ h := by positivity
    rw [pow_succ] at hi e
    exact ⟨by rw [e i (by omega) (by omega)]; exact ht.1, ht.2.1, TreeHolds.congr (by omega) (fun j h1 h2 => e j (by omega) (by omega)) ht.2.2.1,
      TreeHolds.congr (by omega) (fun j h1 h2 => e j (by omega) (by omega)) ht.2.2.2⟩

theorem TreeHolds.empty {a : List Nat} {h i : Nat} (e : ∀ j, i + 1 ≤ j + 2 ^ h → j < i + 2 ^ h → a.getD j 0 = 0) : TreeHolds a h i [] := by
  cases h
  · trivial
  · exact e

/-! ### One insertion -/

theorem inserts_end {a : List Nat} {x i : Nat} {r : Option Nat} {a' : List Nat} (h : Inserts a x i 0 r a') : r = some i ∧ a' = a := by
  obtain ⟨p, e, d', hD, -, -, h4⟩ := h
  cases hD with
  | here =>
    rcases h4 with ⟨-, h5, -⟩ | ⟨h5, -, h6⟩
    · omega
    · exact ⟨h5, h6⟩
  | right h0 => omega
  | left h0 => omega

theorem inserts_empty {a : List Nat} {x i d : Nat} {r : Option Nat} {a' : List Nat} (hd : 0 < d) (ha : a.getD i 0 = 0) (h : Inserts a x i d r a') :
    r = none ∧ a' = a.set i x := by
  obtain ⟨p, e, d', hD, hp, -, h4⟩ := h
  cases hD with
  | here =>
    rcases h4 with ⟨h5, -, -, h6⟩ | ⟨-, h5, -⟩
    · exact ⟨h5, h6⟩
    · omega
  | right h0 => exact absurd ha (hp i (by simp)).2
  | left h0 => exact absurd ha (hp i (by simp)).2

theorem inserts_step {a : List Nat} {x i d : Nat} {r : Option Nat} {a' : List Nat} (hd : 0 < d) (ha : a.getD i 0 ≠ 0) (h : Inserts a x i d r a') :
    if a.getD i 0 < x then Inserts a x (i + d) (d / 2) r a' else Inserts a x (i - d) (d / 2) r a' := by
  obtain ⟨p, e, d', hD, hp, he, h4⟩ := h
  cases hD with
  | here =>
    rcases h4 with ⟨-, -, h5, -⟩ | ⟨-, h5, -⟩
    · exact absurd h5 ha
    · omega
  | right h0 h1 h2 =>
    rw [if_pos h1]
    exact ⟨_, e, d', h2, fun j hj => hp j (by simp [hj]), he, h4⟩
  | left h0 h1 h2 h3 =>
    rw [if_neg h2]
    exact ⟨_, e, d', h3, fun j hj => hp j (by simp [hj]), he, h4⟩

theorem getD_set_ne {a : List Nat} {i j x : Nat} (h : j ≠ i) : (a.set i x).getD j 0 = a.getD j 0 := by
  simp only [List.getD_eq_getElem?_getD, List.getElem?_set_ne (Ne.symm h)]

/-- What an insertion does to the array: the key is added to the list if there is room, and the end of the descent is reported if there
is none. -/
theorem inserts_holds (a : List Nat) (z : Nat) (hz : z ≠ 0) (r : Option Nat) (a' : List Nat) :
    ∀ (h i : Nat) (l : List Nat), 2 ^ h ≤ i + 1 → i + 2 ^ h ≤ a.length → fits h l = true → TreeHolds a h i l → Inserts a z i (2 ^ h / 2) r a' →
      (fits h (l ++ [z]) = true ∧ r = none ∧ TreeHolds a' h i (l ++ [z]) ∧
        ∀ j, j + 2 ^ h < i + 1 ∨ i + 2 ^ h ≤ j → a'.getD j 0 = a.getD j 0) ∨
      (fits h (l ++ [z]) = false ∧ ∃ e, r = some e ∧ a' = a ∧ e + 2 ^ h = i + 1 + 2 * endPos h l z)
  | 0, i, l, h1, h2, hf, hh, hi => by
    have hl : l = [] := by simpa [fits] using hf
    subst hl
    obtain ⟨h3, h4⟩ := inserts_end (by simpa using hi)
    exact .inr ⟨rfl, i, h3, h4, by simp [endPos]⟩
  | h + 1, i, [], h1, h2, hf, hh, hi => by
    have hp : 0 < 2 ^ h := by positivity
    have hd : 2 ^ (h + 1) / 2 = 2 ^ h := by rw [pow_succ]; omega
    rw [hd] at hi
    obtain ⟨rfl, rfl⟩ := inserts_empty hp (hh i (by rw [pow_succ]; omega) (by rw [pow_succ]; omega)) hi
    rw [pow_succ] at h1 h2
    refine .inl ⟨by simp [fits, fits_nil], rfl, ?_, fun j hj => getD_set_ne (by rw [pow_succ] at hj; omega)⟩
    show (a.set i z).getD i 0 = z ∧ z ≠ 0 ∧ TreeHolds (a.set i z) h (i - 2 ^ h) [] ∧ TreeHolds (a.set i z) h (i + 2 ^ h) []
    refine ⟨?_, hz, TreeHolds.empty fun j g1 g2 => ?_, TreeHolds.empty fun j g1 g2 => ?_⟩
    · rw [getD_eq_get (by simp; omega)]; simp
    · rw [getD_set_ne (by omega)]; exact hh j (by rw [pow_succ]; omega) (by rw [pow_succ]; omega)
    · rw [getD_set_ne (by omega)]; exact hh j (by rw [pow_succ]; omega) (by rw [pow_succ]; omega)
  | h + 1, i, x :: l, h1, h2, hf, hh, hi => by
    have hp : 0 < 2 ^ h := by positivity
    have hd : 2 ^ (h + 1) / 2 = 2 ^ h := by rw [pow_succ]; omega
    rw [hd] at hi
    obtain ⟨k1, k2, k3, k4⟩ := hh
    have hs := inserts_step hp (by rw [k1]; exact k2) hi
    rw [k1] at hs
    rw [pow_succ] at h1 h2
    rw [fits, Bool.and_eq_true] at hf
    by_cases hx : x < z
    · rw [if_pos hx] at hs
      have f1 : ((l ++ [z]).filter fun y => decide (y ≤ x)) = l.filter fun y => decide (y ≤ x) := by
        rw [List.filter_append, List.filter_cons_of_neg (by simpa using hx)]; simp
      have f2 : ((l ++ [z]).filter fun y => decide (x < y)) = (l.filter fun y => decide (x < y)) ++ [z] := by
        rw [List.filter_append, List.filter_cons_of_pos (by simpa using hx)]; simp
      rw [List.cons_append, fits, f1, f2, hf.1, Bool.true_and, endPos, if_neg (by omega), pow_succ]
      rcases inserts_holds a z hz r a' h (i + 2 ^ h) _ (by omega) (by omega) hf.2 k4 hs with ⟨g1, g2, g3, g4⟩ | ⟨g1, e, g2, g3, g4⟩
      · refine .inl ⟨g1, g2, ?_, fun j hj => g4 j (by omega)⟩
        show a'.getD i 0 = x ∧ x ≠ 0 ∧ TreeHolds a' h (i - 2 ^ h) ((l ++ [z]).filter (· ≤ x)) ∧ TreeHolds a' h (i + 2 ^ h) ((l ++ [z]).filter (x < ·))
        rw [f1, f2]
        exact ⟨by rw [g4 i (by omega)]; exact k1, k2, k3.congr (by omega) fun j c1 c2 => g4 j (by omega), g3⟩
      · exact .inr ⟨g1, e, g2, g3, by omega⟩
    · rw [if_neg hx] at hs
      have f1 : ((l ++ [z]).filter fun y => decide (y ≤ x)) = (l.filter fun y => decide (y ≤ x)) ++ [z] := by
        rw [List.filter_append, List.filter_cons_of_pos (by simpa using hx)]; simp
      have f2 : ((l ++ [z]).filter fun y => decide (x < y)) = l.filter fun y => decide (x < y) := by
        rw [List.filter_append, List.filter_cons_of_neg (by simpa using hx)]; simp
      rw [List.cons_append, fits, f1, f2, hf.2, Bool.and_true, endPos, if_pos (by omega), pow_succ]
      rcases inserts_holds a z hz r a' h (i - 2 ^ h) _ (by omega) (by omega) hf.1 k3 hs with ⟨g1, g2, g3, g4⟩ | ⟨g1, e, g2, g3, g4⟩
      · refine .inl ⟨g1, g2, ?_, fun j hj => g4 j (by omega)⟩
        show a'.getD i 0 = x ∧ x ≠ 0 ∧ TreeHolds a' h (i - 2 ^ h) ((l ++ [z]).filter (· ≤ x)) ∧ TreeHolds a' h (i + 2 ^ h) ((l ++ [z]).filter (x < ·))
        rw [f1, f2]
        exact ⟨by rw [g4 i (by omega)]; exact k1, k2, g3, k4.congr (by omega) fun j c1 c2 => g4 j (by omega)⟩
      · exact .inr ⟨g1, e, g2, g3, by omega⟩

/-! ### One tree -/

/-- Adding keys until one finds no room: the number of keys and the place of the last one. -/
def keyWalk (H : Nat) : (fuel : Nat) → (l : List Nat) → (s : Nat → Nat) → Nat × Nat
  | 0, _, _ => (0, 0)
  | fuel + 1, l, s =>
    if fits H (l ++ [s 0]) then ((keyWalk H fuel (l ++ [s 0]) (dropSeq 1 s)).1 + 1, (keyWalk H fuel (l ++ [s 0]) (dropSeq 1 s)).2)
    else (1, endPos H l (s 0))

theorem inserts_length {a : List Nat} {x i d : Nat} {r : Option Nat} {a' : List Nat} (h : Inserts a x i d r a') : a'.length = a.length := by
  obtain ⟨p, e, d', -, -, -, ⟨-, -, -, rfl⟩ | ⟨-, -, rfl⟩⟩ := h
  · simp
  · rfl

theorem fills_keyWalk (H : Nat) (key : Nat → Nat) (hk : ∀ n, key n ≠ 0) {k : Nat} {a : List Nat} {n e : Nat}
    (h : Fills key (2 * 2 ^ H) k a n e) : a.length = 2 * 2 ^ H → ∀ l fuel, fits H l = true → TreeHolds a H (2 ^ H - 1) l → n ≤ fuel →
      keyWalk H fuel l (dropSeq k key) = (n, e / 2) := by
  have hp : 0 < 2 ^ H := by positivity
  have hd : 2 * 2 ^ H / 2 = 2 ^ H := by omega
  induction h with
  | @full k a e hm =>
    intro hl l fuel hf hh hn
    obtain ⟨f, rfl⟩ : ∃ f, fuel = f + 1 := ⟨fuel - 1, by omega⟩
    rw [hd] at hm
    rcases inserts_holds a (key k) (hk k) _ _ H _ l (by omega) (by omega) hf hh hm with ⟨g1, g2, -⟩ | ⟨g1, e', g2, g3, g4⟩
    · simp at g2
    · rw [keyWalk]
      show (if fits H (l ++ [key k]) = true then _ else _) = _
      rw [g1, if_neg (by simp)]
      show (1, endPos H l (key k)) = _
      rw [Option.some.injEq] at g2
      subst g2
      congr 1
      omega
  | @more k a a' n e hm hr ih =>
    intro hl l fuel hf hh hn
    obtain ⟨f, rfl⟩ : ∃ f, fuel = f + 1 := ⟨fuel - 1, by omega⟩
    rw [hd] at hm
    rcases inserts_holds a (key k) (hk k) _ _ H _ l (by omega) (by omega) hf hh hm with ⟨g1, g2, g3, g4⟩ | ⟨g1, e', g2, g3, g4⟩
    · rw [keyWalk]
      show (if fits H (l ++ [key k]) = true then ((keyWalk H f (l ++ [key k]) (dropSeq 1 (dropSeq k key))).1 + 1,
        (keyWalk H f (l ++ [key k]) (dropSeq 1 (dropSeq k key))).2) else _) = _
      have hdd : dropSeq 1 (dropSeq k key) = dropSeq (k + 1) key := by
        funext i; simp only [dropSeq]; congr 1; omega
      rw [g1, if_pos rfl, hdd, ih ((inserts_length hm).trans hl) _ f g1 g3 (by omega)]
    · simp at g2

/-! ### The result of a tree in terms of its keys -/

/-- The first `n` members of the sequence. -/
def firstKeys (s : Nat → Nat) (n : Nat) : List Nat := (List.range n).map s

theorem firstKeys_succ (s : Nat → Nat) (n : Nat) : firstKeys s (n + 1) = s 0 :: firstKeys (dropSeq 1 s) n := by
  rw [firstKeys, List.range_succ_eq_map, List.map_cons, List.map_map]
  congr 1
  refine List.map_congr_left fun i _ => ?_
  show s (i + 1) = s (1 + i)
  rw [Nat.add_comm]

theorem keyWalk_gt (H : Nat) : ∀ (fuel c : Nat) (l : List Nat) (s : Nat → Nat), c < fuel → fits H l = true →
    (c < (keyWalk H fuel l s).1 ↔ fits H (l ++ firstKeys s c) = true)
  | 0, c, l, s, hc, _ => absurd hc (Nat.not_lt_zero _)
  | fuel + 1, 0, l, s, _, hf => by
    rw [keyWalk]
    have : l ++ firstKeys s 0 = l := by simp [firstKeys]
    rw [this]
    split <;> simp [hf]
  | fuel + 1, c + 1, l, s, hc, hf => by
    rw [keyWalk, firstKeys_succ]
    have e : l ++ s 0 :: firstKeys (dropSeq 1 s) c = l ++ [s 0] ++ firstKeys (dropSeq 1 s) c := by simp
    rw [e]
    by_cases h : fits H (l ++ [s 0]) = true
    · rw [if_pos h, ← keyWalk_gt H fuel c _ _ (by omega) h]
      exact Nat.succ_lt_succ_iff
    · rw [if_neg h]
      exact ⟨fun g => absurd g (by simp), fun g => absurd (fits_prefix H _ _ g) h⟩

theorem keyWalk_eq (H : Nat) : ∀ (fuel c q : Nat) (l : List Nat) (s : Nat → Nat), c < fuel → 2 ^ H ≤ l.length + fuel → fits H l = true →
    (keyWalk H fuel l s = (c + 1, q) ↔ fits H (l ++ firstKeys s c) = true ∧ fits H (l ++ firstKeys s c ++ [s c]) = false ∧
      endPos H (l ++ firstKeys s c) (s c) = q)
  | 0, c, q, l, s, hc, _, _ => absurd hc (Nat.not_lt_zero _)
  | fuel + 1, 0, q, l, s, _, hl, hf => by
    rw [keyWalk]
    have : l ++ firstKeys s 0 = l := by simp [firstKeys]
    rw [this]
    by_cases h : fits H (l ++ [s 0]) = true
    · rw [if_pos h, h]
      refine ⟨fun g => ?_, fun g => by simp at g⟩
      rw [Prod.mk.injEq] at g
      cases fuel with
      | zero => have := fits_length H _ h; rw [List.length_append, List.length_singleton] at this; omega
      | succ fuel =>
        have := (keyWalk_gt H (fuel + 1) 0 _ (dropSeq 1 s) (by omega) h).2 (by simpa [firstKeys] using h)
        omega
    · rw [if_neg h]
      simp [hf, h]
  | fuel + 1, c + 1, q, l, s, hc, hl, hf => by
    rw [keyWalk, firstKeys_succ]
    have e : l ++ s 0 :: firstKeys (dropSeq 1 s) c = l ++ [s 0] ++ firstKeys (dropSeq 1 s) c := by simp
    have e2 : s (c + 1) = dropSeq 1 s c := by rw [dropSeq, Nat.add_comm]
    rw [e, e2]
    by_cases h : fits H (l ++ [s 0]) = true
    · rw [if_pos h, ← keyWalk_eq H fuel c q _ _ (by omega) (by rw [List.length_append, List.length_singleton]; omega) h]
      simp only [Prod.ext_iff]
      omega
    · rw [if_neg h]
      refine ⟨fun g => ?_, fun g => absurd (fits_prefix H _ _ g.1) h⟩
      rw [Prod.mk.injEq] at g
      omega

end Dh
