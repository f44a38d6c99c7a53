import Verif.Proof.FillLaw
import Verif.Props.FillTree
/-
The array of dab_filltree2.c as a tree, and its paths.
-/
namespace Dh
open Spec

/-- The part of the array around node `i`, at height `h`, is the tree `t`. -/
def TreeIn (a : List Nat) : (h i : Nat) → MTree → Prop
  | h, i, .e => ∀ j, i + 1 ≤ j + 2 ^ h → j < i + 2 ^ h → a.getD j 0 = 0
  | 0, i, .n _ _ => a.getD i 0 ≠ 0
  | h + 1, i, .n l r => a.getD i 0 ≠ 0 ∧ TreeIn a h (i - 2 ^ h) l ∧ TreeIn a h (i + 2 ^ h) r

theorem TreeIn.congr {a a' : List Nat} : ∀ {h i : Nat} {t : MTree}, 2 ^ h ≤ i + 1 →
    (∀ j, i + 1 ≤ j + 2 ^ h → j < i + 2 ^ h → a'.getD j 0 = a.getD j 0) → TreeIn a h i t → TreeIn a' h i t
  | h, i, .e, hi, e, ht => by
    have ht' : ∀ j, i + 1 ≤ j + 2 ^ h → j < i + 2 ^ h → a.getD j 0 = 0 := by cases h <;> exact ht
    have : ∀ j, i + 1 ≤ j + 2 ^ h → j < i + 2 ^ h → a'.getD j 0 = 0 := fun j h1 h2 => by rw [e j h1 h2]; exact ht' j h1 h2
    cases h <;> exact this
  | 0, i, .n _ _, hi, e, ht => by
    show a'.getD i 0 ≠ 0
    rw [e i (by omega) (by omega)]
    exact ht
  | h + 1, i, .n l r, hi, e, ht => by
    have hp : 0 < 2 ^ h := by positivity
    rw [pow_succ] at hi e
    refine ⟨by rw [e i (by omega) (by omega)]; exact ht.1, TreeIn.congr (by omega) (fun j h1 h2 => e j (by omega) (by omega)) ht.2.1,
      TreeIn.congr (by omega) (fun j h1 h2 => e j (by omega) (by omega)) ht.2.2⟩

theorem TreeIn.empty {a : List Nat} {h i : Nat} : TreeIn a h i .e ↔ ∀ j, i + 1 ≤ j + 2 ^ h → j < i + 2 ^ h → a.getD j 0 = 0 := by
  cases h <;> exact Iff.rfl

/-- A node without marks below it. -/
theorem TreeIn.mark {a : List Nat} {h i : Nat} (hi : 2 ^ h ≤ i + 1) (hl : i < a.length) (ht : TreeIn a h i .e) :
    TreeIn (a.set i 1) h i (.n .e .e) := by
  have hm : (a.set i 1).getD i 0 ≠ 0 := by rw [getD_eq_get (by simpa using hl)]; simp
  rw [TreeIn.empty] at ht
  cases h with
  | zero => exact hm
  | succ h =>
    have hp : 0 < 2 ^ h := by positivity
    rw [pow_succ] at hi ht
    have hne : ∀ j, j ≠ i → (a.set i 1).getD j 0 = a.getD j 0 := by
      intro j hj
      simp only [List.getD_eq_getElem?_getD, List.getElem?_set_ne (Ne.symm hj)]
    refine ⟨hm, TreeIn.empty.2 fun j h1 h2 => ?_, TreeIn.empty.2 fun j h1 h2 => ?_⟩
    · rw [hne j (by omega)]; exact ht j (by omega) (by omega)
    · rw [hne j (by omega)]; exact ht j (by omega) (by omega)

theorem pathNode_step (H d : Nat) (hd : d < H) (bits : Nat → Bool) :
    pathNode (2 ^ H) bits (d + 1) = if bits d then pathNode (2 ^ H) bits d + 2 ^ (H - d - 1) else pathNode (2 ^ H) bits d - 2 ^ (H - d - 1) := by
  rw [pathNode, Nat.pow_div (by omega) (by norm_num), Nat.sub_sub]

/-- What a path does to the array, from its node at depth `d` on. -/
theorem walk_nodes (H : Nat) (bits : Nat → Bool) (a : List Nat) (hl : a.length = 2 * 2 ^ H) :
    ∀ (h d : Nat) (t : MTree), d + h = H → 2 ^ h ≤ pathNode (2 ^ H) bits d + 1 → pathNode (2 ^ H) bits d + 2 ^ h ≤ 2 * 2 ^ H →
      TreeIn a h (pathNode (2 ^ H) bits d) t →
      (∀ s, d ≤ s → s < d + (walk h t (dropSeq d bits)).2 → a.getD (pathNode (2 ^ H) bits s) 0 ≠ 0) ∧
      (∀ t', (walk h t (dropSeq d bits)).1 = .marked t' →
        pathNode (2 ^ H) bits d + 1 ≤ pathNode (2 ^ H) bits (d + (walk h t (dropSeq d bits)).2) + 2 ^ h ∧
        pathNode (2 ^ H) bits (d + (walk h t (dropSeq d bits)).2) < pathNode (2 ^ H) bits d + 2 ^ h ∧
        a.getD (pathNode (2 ^ H) bits (d + (walk h t (dropSeq d bits)).2)) 0 = 0 ∧
        TreeIn (a.set (pathNode (2 ^ H) bits (d + (walk h t (dropSeq d bits)).2)) 1) h (pathNode (2 ^ H) bits d) t') ∧
      (∀ q, (walk h t (dropSeq d bits)).1 = .full q → (walk h t (dropSeq d bits)).2 = h ∧ q < 2 ^ h ∧
        a.getD (pathNode (2 ^ H) bits H) 0 ≠ 0 ∧ pathNode (2 ^ H) bits H + 2 ^ h = pathNode (2 ^ H) bits d + 1 + 2 * q)
  | h, d, .e, hd, h1, h2, ht => by
    have hp : 0 < 2 ^ h := by positivity
    have e : walk h .e (dropSeq d bits) = (.marked (.n .e .e), 0) := by cases h <;> rfl
    rw [e]
    refine ⟨fun s _ _ => by omega, fun t' et => ?_, fun q eq => by simp at eq⟩
    cases et
    refine ⟨by simp only [Nat.add_zero]; omega, by simp only [Nat.add_zero]; omega, ?_, ?_⟩
    · exact TreeIn.empty.1 ht _ (by simp only [Nat.add_zero]; omega) (by simp only [Nat.add_zero]; omega)
    · exact TreeIn.mark h1 (by show pathNode (2 ^ H) bits d < _; omega) ht
  | 0, d, .n _ _, hd, h1, h2, ht => by
    simp only [walk]
    refine ⟨fun s _ _ => by omega, fun t' et => by simp at et, fun q eq => ?_⟩
    cases eq
    have : d = H := by omega
    subst this
    exact ⟨trivial, by norm_num, ht, by norm_num⟩
  | h + 1, d, .n l r, hd, h1, h2, ht => by
    have hp : 0 < 2 ^ h := by positivity
    have hs : H - d - 1 = h := by omega
    have hn := pathNode_step H d (by omega) bits
    rw [hs] at hn
    obtain ⟨k0, k1, k2⟩ := ht
    rw [pow_succ] at h1 h2 ⊢
    have hdd : dropSeq 1 (dropSeq d bits) = dropSeq (d + 1) bits := by rw [dropSeq_dropSeq, Nat.add_comm]
    have hb : dropSeq d bits 0 = bits d := rfl
    rw [walk, hdd, hb]
    by_cases hbd : bits d = true
    · rw [if_pos hbd] at hn ⊢
      rw [← hn] at k2
      obtain ⟨a1, a2, a3⟩ := walk_nodes H bits a hl h (d + 1) r (by omega) (by omega) (by omega) k2
      generalize hw : walk h r (dropSeq (d + 1) bits) = w at *
      obtain ⟨o, u⟩ := w
      have hu : d + (u + 1) = d + 1 + u := by omega
      simp only [hu]
      refine ⟨fun s hs1 hs2 => ?_, fun t' et => ?_, fun q eq => ?_⟩
      · rcases Nat.eq_or_lt_of_le hs1 with rfl | hlt
        · exact k0
        · exact a1 s (by omega) hs2
      · cases o with
        | full q => simp [PathEnd.right] at et
        | marked t2 =>
          simp only [PathEnd.right, PathEnd.marked.injEq] at et
          subst et
          obtain ⟨b1, b2, b3, b4⟩ := a2 t2 rfl
          simp only at b1 b2 b3 b4
          refine ⟨by omega, by omega, b3, ?_⟩
          generalize pathNode (2 ^ H) bits (d + 1 + u) = j at *
          have hne : ∀ j', j' ≠ j → (a.set j 1).getD j' 0 = a.getD j' 0 := by
            intro j' hj
            simp only [List.getD_eq_getElem?_getD, List.getElem?_set_ne (Ne.symm hj)]
          refine ⟨by rw [hne _ (by omega)]; exact k0, TreeIn.congr (by omega) (fun j' c1 c2 => hne j' (by omega)) k1, ?_⟩
          rw [← hn]; exact b4
      · cases o with
        | marked t2 => simp [PathEnd.right] at eq
        | full q2 =>
          simp only [PathEnd.right, PathEnd.full.injEq] at eq
          subst eq
          obtain ⟨b1, b2, b3, b4⟩ := a3 q2 rfl
          simp only at b1
          exact ⟨by omega, by omega, b3, by omega⟩
    · rw [if_neg hbd] at hn ⊢
      rw [← hn] at k1
      obtain ⟨a1, a2, a3⟩ := walk_nodes H bits a hl h (d + 1) l (by omega) (by omega) (by omega) k1
      generalize hw : walk h l (dropSeq (d + 1) bits) = w at *
      obtain ⟨o, u⟩ := w
      have hu : d + (u + 1) = d + 1 + u := by omega
      simp only [hu]
      refine ⟨fun s hs1 hs2 => ?_, fun t' et => ?_, fun q eq => ?_⟩
      · rcases Nat.eq_or_lt_of_le hs1 with rfl | hlt
        · exact k0
        · exact a1 s (by omega) hs2
      · cases o with
        | full q => simp [PathEnd.left] at et
        | marked t2 =>
          simp only [PathEnd.left, PathEnd.marked.injEq] at et
          subst et
          obtain ⟨b1, b2, b3, b4⟩ := a2 t2 rfl
          simp only at b1 b2 b3 b4
          refine ⟨by omega, by omega, b3, ?_⟩
          generalize pathNode (2 ^ H) bits (d + 1 + u) = j at *
          have hne : ∀ j', j' ≠ j → (a.set j 1).getD j' 0 = a.getD j' 0 := by
            intro j' hj
            simp only [List.getD_eq_getElem?_getD, List.getElem?_set_ne (Ne.symm hj)]
          refine ⟨by rw [hne _ (by omega)]; exact k0, ?_, TreeIn.congr (by omega) (fun j' c1 c2 => hne j' (by omega)) k2⟩
          rw [← hn]; exact b4
      · cases o with
        | marked t2 => simp [PathEnd.left] at eq
        | full q2 =>
          simp only [PathEnd.left, PathEnd.full.injEq] at eq
          subst eq
          obtain ⟨b1, b2, b3, b4⟩ := a3 q2 rfl
          simp only at b1
          exact ⟨by omega, by omega, b3, by omega⟩

/-- The tree below the root, which is never marked. -/
def RootIn (a : List Nat) (H : Nat) : MTree → Prop
  | .e => False
  | .n l r => TreeIn a (H - 1) (2 ^ H - 1 - 2 ^ (H - 1)) l ∧ TreeIn a (H - 1) (2 ^ H - 1 + 2 ^ (H - 1)) r

/-- The result of a path in the terms of the program. -/
def PathEnd.result : PathEnd → Option Nat
  | .marked _ => none
  | .full q => some (2 * q)

theorem half_pos {m t : Nat} : 0 < m / 2 ^ t ↔ 2 ^ t ≤ m := Nat.div_pos_iff.trans ⟨fun h => h.2, fun h => ⟨by positivity, h⟩⟩

theorem walk_marks (H : Nat) (hH : 1 ≤ H) (bits : Nat → Bool) (a : List Nat) (hl : a.length = 2 * 2 ^ H) (t : MTree) (ht : RootIn a H t) :
    ∃ a', Marks (2 ^ H) bits a (walk H t bits).2 (walk H t bits).1.result a' ∧ a'.length = a.length ∧
      (∀ t', (walk H t bits).1 = .marked t' → RootIn a' H t') ∧ ∀ q, (walk H t bits).1 = .full q → q < 2 ^ H := by
  obtain ⟨h, rfl⟩ : ∃ h, H = h + 1 := ⟨H - 1, by omega⟩
  cases t with
  | e => exact ht.elim
  | n l r =>
    obtain ⟨k1, k2⟩ := ht
    simp only [Nat.add_sub_cancel] at k1 k2
    have hp : 0 < 2 ^ h := by positivity
    have h2 : 2 ^ (h + 1) = 2 ^ h * 2 := pow_succ 2 h
    have hn := pathNode_step (h + 1) 0 (by omega) bits
    have hr : pathNode (2 ^ (h + 1)) bits 0 = 2 ^ (h + 1) - 1 := rfl
    have hlt : ∀ t, pathNode (2 ^ (h + 1)) bits t < a.length := fun t => by
      have := pathNode_bounds (2 ^ (h + 1)) bits (by omega) t; omega
    simp only [Nat.sub_zero, Nat.add_sub_cancel, Nat.zero_add, hr] at hn
    rw [walk]
    by_cases hb : bits 0 = true
    · rw [if_pos hb] at hn ⊢
      rw [← hn] at k2
      obtain ⟨a1, a2, a3⟩ := walk_nodes (h + 1) bits a hl h 1 r (by omega) (by omega) (by omega) k2
      generalize hw : walk h r (dropSeq 1 bits) = w at *
      obtain ⟨o, u⟩ := w
      simp only at a1 a2 a3 ⊢
      have hu : u ≤ h := by have := walk_le h r (dropSeq 1 bits); rw [hw] at this; exact this
      have hm : ∀ s, 1 ≤ s → s < u + 1 → a.getD (pathNode (2 ^ (h + 1)) bits s) 0 ≠ 0 ∧ 0 < 2 ^ (h + 1) / 2 ^ (s + 1) :=
        fun s hs1 hs2 => ⟨a1 s hs1 (by omega), half_pos.2 (Nat.pow_le_pow_right (by norm_num) (by omega))⟩
      rw [Nat.add_comm 1 u] at a2
      cases o with
      | marked t2 =>
        obtain ⟨b1, b2, b3, b4⟩ := a2 t2 rfl
        refine ⟨_, ⟨by omega, hm, hlt _, .inl ⟨rfl, b3, rfl⟩⟩, by simp, fun t' et => ?_, fun q eq => by simp [PathEnd.right] at eq⟩
        simp only [PathEnd.right, PathEnd.marked.injEq] at et
        subst et
        refine ⟨?_, ?_⟩
        · simp only [Nat.add_sub_cancel]
          refine TreeIn.congr (by omega) (fun j' c1 c2 => ?_) k1
          rw [List.getD_eq_getElem?_getD, List.getElem?_set_ne (by omega), List.getD_eq_getElem?_getD]
        · simp only [Nat.add_sub_cancel]
          rw [← hn]; exact b4
      | full q2 =>
        obtain ⟨b1, b2, b3, b4⟩ := a3 q2 rfl
        refine ⟨a, ⟨by omega, hm, hlt _, .inr ⟨?_, ?_, ?_, rfl⟩⟩, rfl, fun t' et => by simp [PathEnd.right] at et, fun q eq => ?_⟩
        · rw [b1]; show some _ = some _; congr 1; omega
        · rw [b1]; exact b3
        · rw [b1]; exact Nat.div_eq_of_lt (Nat.pow_lt_pow_right (by norm_num) (by omega))
        · simp only [PathEnd.right, PathEnd.full.injEq] at eq
          omega
    · rw [if_neg hb] at hn ⊢
      rw [← hn] at k1
      obtain ⟨a1, a2, a3⟩ := walk_nodes (h + 1) bits a hl h 1 l (by omega) (by omega) (by omega) k1
      generalize hw : walk h l (dropSeq 1 bits) = w at *
      obtain ⟨o, u⟩ := w
      simp only at a1 a2 a3 ⊢
      have hu : u ≤ h := by have := walk_le h l (dropSeq 1 bits); rw [hw] at this; exact this
      have hm : ∀ s, 1 ≤ s → s < u + 1 → a.getD (pathNode (2 ^ (h + 1)) bits s) 0 ≠ 0 ∧ 0 < 2 ^ (h + 1) / 2 ^ (s + 1) :=
        fun s hs1 hs2 => ⟨a1 s hs1 (by omega), half_pos.2 (Nat.pow_le_pow_right (by norm_num) (by omega))⟩
      rw [Nat.add_comm 1 u] at a2
      cases o with
      | marked t2 =>
        obtain ⟨b1, b2, b3, b4⟩ := a2 t2 rfl
        refine ⟨_, ⟨by omega, hm, hlt _, .inl ⟨rfl, b3, rfl⟩⟩, by simp, fun t' et => ?_, fun q eq => by simp [PathEnd.left] at eq⟩
        simp only [PathEnd.left, PathEnd.marked.injEq] at et
        subst et
        refine ⟨?_, ?_⟩
        · simp only [Nat.add_sub_cancel]
          rw [← hn]; exact b4
        · simp only [Nat.add_sub_cancel]
          refine TreeIn.congr (by omega) (fun j' c1 c2 => ?_) k2
          rw [List.getD_eq_getElem?_getD, List.getElem?_set_ne (by omega), List.getD_eq_getElem?_getD]
      | full q2 =>
        obtain ⟨b1, b2, b3, b4⟩ := a3 q2 rfl
        refine ⟨a, ⟨by omega, hm, hlt _, .inr ⟨?_, ?_, ?_, rfl⟩⟩, rfl, fun t' et => by simp [PathEnd.left] at et, fun q eq => ?_⟩
        · rw [b1]; show some _ = some _; congr 1; omega
        · rw [b1]; exact b3
        · rw [b1]; exact Nat.div_eq_of_lt (Nat.pow_lt_pow_right (by norm_num) (by omega))
        · simp only [PathEnd.left, PathEnd.full.injEq] at eq
          omega

/-- A path has one result. -/
theorem Marks.unique {m : Nat} {bits : Nat → Bool} {a : List Nat} {t t' : Nat} {r r' : Option Nat} {a' a'' : List Nat}
    (h : Marks m bits a t r a') (h' : Marks m bits a t' r' a'') : t = t' ∧ r = r' ∧ a' = a'' := by
  obtain ⟨h1, h2, -, h4⟩ := h
  obtain ⟨k1, k2, -, k4⟩ := h'
  have key : t = t' := by
    rcases Nat.lt_trichotomy t t' with hlt | he | hlt
    · have := k2 t h1 hlt
      rcases h4 with ⟨-, h5, -⟩ | ⟨-, -, h5, -⟩
      · exact absurd h5 this.1
      · omega
    · exact he
    · have := h2 t' k1 hlt
      rcases k4 with ⟨-, h5, -⟩ | ⟨-, -, h5, -⟩
      · exact absurd h5 this.1
      · omega
  subst key
  rcases h4 with ⟨a1, a2, a3⟩ | ⟨a1, a2, a3, a4⟩ <;> rcases k4 with ⟨b1, b2, b3⟩ | ⟨b1, b2, b3, b4⟩
  · exact ⟨rfl, a1.trans b1.symm, a3.trans b3.symm⟩
  · exact absurd a2 b2
  · exact absurd b2 a2
  · exact ⟨rfl, a1.trans b1.symm, a4.trans b4.symm⟩

theorem fills_walk (H : Nat) (hH : 1 ≤ H) (bits : Nat → Bool) {k : Nat} {a : List Nat} {n u e : Nat} (h : Fills2 bits (2 ^ H) k a n u e) :
    a.length = 2 * 2 ^ H → ∀ t fuel, RootIn a H t → n ≤ fuel → fillWalk H fuel t (dropSeq k bits) = (n, u, e / 2) ∧ e / 2 < 2 ^ H := by
  induction h with
  | @full k a t0 e hm =>
    intro hl t fuel ht hf
    obtain ⟨a', h1, -, -, h4⟩ := walk_marks H hH (dropSeq k bits) a hl t ht
    obtain ⟨e1, e2, -⟩ := Marks.unique hm h1
    obtain ⟨f, rfl⟩ : ∃ f, fuel = f + 1 := ⟨fuel - 1, by omega⟩
    rw [fillWalk]
    rcases hw : walk H t (dropSeq k bits) with ⟨o, u⟩
    rw [hw] at e1 e2 h4
    cases o with
    | marked t' => simp [PathEnd.result] at e2
    | full q =>
      simp only [PathEnd.result, Option.some.injEq] at e1 e2 ⊢
      subst e1 e2
      exact ⟨by simp, by have := h4 q rfl; omega⟩
  | @more k a a' t0 n u e hm hr ih =>
    intro hl t fuel ht hf
    obtain ⟨a2, h1, h2, h3, -⟩ := walk_marks H hH (dropSeq k bits) a hl t ht
    obtain ⟨e1, e2, e3⟩ := Marks.unique hm h1
    subst e3
    obtain ⟨f, rfl⟩ : ∃ f, fuel = f + 1 := ⟨fuel - 1, by omega⟩
    rw [fillWalk]
    rcases hw : walk H t (dropSeq k bits) with ⟨o, u'⟩
    rw [hw] at e1 e2 h3
    cases o with
    | full q => simp [PathEnd.result] at e2
    | marked t' =>
      simp only at e1 ⊢
      subst e1
      obtain ⟨i1, i2⟩ := ih (h2.trans hl) t' f (h3 t' rfl) (by omega)
      have hd : dropSeq t0 (dropSeq k bits) = dropSeq (k + t0) bits := by rw [dropSeq_dropSeq, Nat.add_comm]
      rw [hd, i1]
      exact ⟨rfl, i2⟩

end Dh
