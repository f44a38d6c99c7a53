import Verif.Model.Rank
import Verif.Spec.Rank
import Mathlib.LinearAlgebra.Dimension.Constructions
import Mathlib.Tactic.Ring
set_option linter.unusedSimpArgs false
namespace Dh
open Spec

/-- First word of row `t`. -/
def W (mtx : List (List UInt)) (t : Nat) : UInt := (mtx.getD t []).getD 0 0

def bz (w : UInt) (c : Nat) : ZMod 2 := if w.getLsbD c then 1 else 0

theorem bz_xor (a b : UInt) (c : Nat) : bz (a ^^^ b) c = bz a c + bz b c := by
  unfold bz
  rw [BitVec.getLsbD_xor]
  cases a.getLsbD c <;> cases b.getLsbD c <;> decide

def NE (mtx : List (List UInt)) : Prop := ∀ row ∈ mtx, 1 ≤ row.length

theorem rd_row (mtx : List (List UInt)) (hne : NE mtx) (k : Nat) (hk : k < mtx.length) :
    ∃ row, rd mtx k = .ok row ∧ row = mtx.getD k [] ∧ 1 ≤ row.length ∧ rd row 0 = .ok (W mtx k) := by
  refine ⟨mtx[k], rd_ok hk, ?_, hne _ (List.getElem_mem hk), ?_⟩
  · simp [List.getD_eq_getElem?_getD, hk]
  · have h1 := hne _ (List.getElem_mem hk)
    rw [rd_ok (show 0 < mtx[k].length by omega)]
    simp only [W, List.getD_eq_getElem?_getD, List.getElem?_eq_getElem hk, Option.getD_some,
      List.getElem?_eq_getElem (show 0 < mtx[k].length by omega)]

theorem and_twoPow_ne (x : UInt) (j : Nat) (hj : j < 32) : (x &&& BitVec.twoPow 32 j ≠ 0) ↔ x.getLsbD j = true := by
  constructor
  · intro h
    by_contra hb
    apply h
    apply BitVec.eq_of_getLsbD_eq
    intro i hi
    rw [BitVec.getLsbD_and, BitVec.getLsbD_twoPow]
    by_cases hij : j = i
    · subst hij
      simp only [Bool.not_eq_true] at hb
      rw [hb]; simp
    · simp [hij]
  · intro h h0
    have := congrArg (fun v => BitVec.getLsbD v j) h0
    simp only [BitVec.getLsbD_and, BitVec.getLsbD_twoPow, h] at this
    simp [hj] at this

theorem rankFind_spec (mtx : List (List UInt)) (hne : NE mtx) (j : Nat) (hj : j < 32) :
    ∀ (todo k : Nat), k + todo = mtx.length →
    ∃ k', rankFind mtx 0 (BitVec.twoPow 32 j) todo k = .ok k' ∧ k ≤ k' ∧ k' ≤ mtx.length ∧
      (∀ t, k ≤ t → t < k' → (W mtx t).getLsbD j = false) ∧
      (k' < mtx.length → (W mtx k').getLsbD j = true) := by
  intro todo
  induction todo with
  | zero => intro k h; exact ⟨k, rfl, Nat.le_refl _, by omega, fun t h1 h2 => by omega, fun h => by omega⟩
  | succ todo ih =>
    intro k h
    obtain ⟨row, h1, h2, h3, h4⟩ := rd_row mtx hne k (by omega)
    rw [rankFind, h1]
    simp only [Res.bind_ok, h4]
    by_cases hb : (W mtx k).getLsbD j = true
    · rw [if_pos ((and_twoPow_ne _ j hj).2 hb)]
      exact ⟨k, rfl, Nat.le_refl _, by omega, fun t h1 h2 => by omega, fun _ => hb⟩
    · rw [if_neg (fun hh => hb ((and_twoPow_ne _ j hj).1 hh))]
      obtain ⟨k', g1, g2, g3, g4, g5⟩ := ih (k + 1) (by omega)
      refine ⟨k', g1, by omega, g3, ?_, g5⟩
      intro t ht1 ht2
      by_cases he : t = k
      · subst he; simpa using hb
      · exact g4 t (by omega) ht2

theorem W_set (mtx : List (List UInt)) (k t : Nat) (row : List UInt) (hk : k < mtx.length) :
    W (mtx.set k row) t = if t = k then row.getD 0 0 else W mtx t := by
  unfold W
  by_cases h : t = k
  · subst h; simp [List.getD_eq_getElem?_getD, hk]
  · rw [if_neg h]
    congr 1
    rw [List.getD_eq_getElem?_getD, List.getElem?_set_ne (by omega), ← List.getD_eq_getElem?_getD]

theorem NE_set (mtx : List (List UInt)) (hne : NE mtx) (k : Nat) (row : List UInt) (hr : 1 ≤ row.length) :
    NE (mtx.set k row) := by
  intro r hr'
  rcases List.mem_or_eq_of_mem_set hr' with h | h
  · exact hne r h
  · rw [h]; exact hr

theorem rankElim_spec (i j : Nat) (hj : j < 32) : ∀ (todo k : Nat) (mtx : List (List UInt)), NE mtx →
    k + todo = mtx.length → i < k → i < mtx.length →
    ∃ mtx', rankElim i 0 (BitVec.twoPow 32 j) 1 todo k mtx = .ok mtx' ∧ mtx'.length = mtx.length ∧ NE mtx' ∧
      ∀ t, W mtx' t = if k ≤ t ∧ t < mtx.length ∧ (W mtx t).getLsbD j = true then W mtx t ^^^ W mtx i else W mtx t := by
  intro todo
  induction todo with
  | zero =>
    intro k mtx hne hk hik _
    refine ⟨mtx, rfl, rfl, hne, ?_⟩
    intro t
    rw [if_neg (by omega)]
  | succ todo ih =>
    intro k mtx hne hk hik him
    obtain ⟨row, h1, h2, h3, h4⟩ := rd_row mtx hne k (by omega)
    rw [rankElim, h1]
    simp only [Res.bind_ok, h4]
    by_cases hb : (W mtx k).getLsbD j = true
    · rw [if_pos ((and_twoPow_ne _ j hj).2 hb)]
      obtain ⟨rowi, i1, i2, i3, i4⟩ := rd_row mtx hne i him
      rw [i1]
      simp only [Res.bind_ok]
      rw [rankXor, h4]
      simp only [Res.bind_ok, i4]
      rw [wr, if_pos (by omega)]
      simp only [Res.bind_ok, rankXor]
      rw [wr, if_pos (by omega)]
      simp only [Res.bind_ok]
      have hw1 : ∀ t, W (mtx.set k (row.set 0 (W mtx k ^^^ W mtx i))) t = if t = k then W mtx k ^^^ W mtx i else W mtx t := by
        intro t
        rw [W_set _ _ _ _ (by omega)]
        congr 1
        rw [List.getD_eq_getElem?_getD, List.getElem?_set_self (by omega)]; rfl
      obtain ⟨mtx', g1, g2, g3, g4⟩ := ih (k + 1) (mtx.set k (row.set 0 (W mtx k ^^^ W mtx i)))
        (NE_set _ hne _ _ (by simp; omega)) (by simp; omega) (by omega) (by simp; omega)
      refine ⟨mtx', g1, by simpa using g2, g3, ?_⟩
      intro t
      rw [g4 t, hw1 t, hw1 i, if_neg (show ¬ i = k by omega)]
      by_cases he : t = k
      · subst he
        rw [if_neg (by omega), if_pos rfl, if_pos ⟨Nat.le_refl _, by omega, hb⟩]
      · rw [if_neg he]
        simp only [List.length_set]
        by_cases hc : k + 1 ≤ t ∧ t < mtx.length ∧ (W mtx t).getLsbD j = true
        · rw [if_pos hc, if_pos ⟨by omega, hc.2⟩]
        · rw [if_neg hc, if_neg]
          rintro ⟨a, b⟩
          exact hc ⟨by omega, b⟩
    · rw [if_neg (fun hh => hb ((and_twoPow_ne _ j hj).1 hh))]
      obtain ⟨mtx', g1, g2, g3, g4⟩ := ih (k + 1) mtx hne (by omega) (by omega) him
      refine ⟨mtx', g1, g2, g3, ?_⟩
      intro t
      rw [g4 t]
      by_cases hc : k + 1 ≤ t ∧ t < mtx.length ∧ (W mtx t).getLsbD j = true
      · rw [if_pos hc, if_pos ⟨by omega, hc.2⟩]
      · rw [if_neg hc, if_neg]
        rintro ⟨a, b, c⟩
        by_cases he : t = k
        · subst he; exact hb c
        · exact hc ⟨by omega, b, c⟩

/-- Row `t` as a vector. -/
def vec (n : Nat) (mtx : List (List UInt)) (t : Nat) : Fin n → ZMod 2 := fun c => bz (W mtx t) c

def rowSpan (n : Nat) (mtx : List (List UInt)) : Submodule (ZMod 2) (Fin n → ZMod 2) :=
  Submodule.span (ZMod 2) {v | ∃ t < mtx.length, v = vec n mtx t}

structure RkInv (n : Nat) (orig : List (List UInt)) (j i : Nat) (mtx : List (List UInt)) : Prop where
  len : mtx.length = orig.length
  ne : NE mtx
  hspan : rowSpan n mtx = rowSpan n orig
  hi : i ≤ orig.length
  hz : ∀ t, i ≤ t → t < orig.length → ∀ c < j, (W mtx t).getLsbD c = false
  hind : ∀ a : Nat → ZMod 2, (∀ c < j, (Finset.range i).sum (fun t => a t * bz (W mtx t) c) = 0) → ∀ t < i, a t = 0

theorem rank_of_inv (n : Nat) (hn : n ≤ 32) (orig : List (List UInt)) (j i : Nat) (mtx : List (List UInt))
    (h : RkInv n orig j i mtx) (hj : j ≤ n) (hend : j = n ∨ i = orig.length) :
    (bitMatrix orig orig.length n).rank = i := by
  rw [Matrix.rank_eq_finrank_span_row]
  have h1 : Submodule.span (ZMod 2) (Set.range (bitMatrix orig orig.length n).row) = rowSpan n orig := by
    unfold rowSpan
    congr 1
    ext v
    simp only [Set.mem_range, Set.mem_setOf_eq]
    have key : ∀ t : Fin orig.length, (bitMatrix orig orig.length n).row t = vec n orig t := by
      intro t
      funext c
      have hc := c.2
      have e1 : (c : Nat) / 32 = 0 := by omega
      have e2 : (c : Nat) % 32 = c := by omega
      simp [bitMatrix, vec, bz, W, Matrix.row, e1, e2]
    constructor
    · rintro ⟨t, rfl⟩
      exact ⟨t, t.2, key t⟩
    · rintro ⟨t, ht, rfl⟩
      exact ⟨⟨t, ht⟩, key ⟨t, ht⟩⟩
  rw [h1, ← h.hspan]
  have hli : LinearIndependent (ZMod 2) (fun t : Fin i => vec n mtx t) := by
    rw [Fintype.linearIndependent_iff]
    intro g hg t
    have := h.hind (fun s => if hs : s < i then g ⟨s, hs⟩ else 0) (by
      intro c hc
      have := congrFun hg ⟨c, by omega⟩
      simp only [Finset.sum_apply, Pi.smul_apply, smul_eq_mul, Pi.zero_apply, vec] at this
      rw [Finset.sum_range]
      rw [← this]
      apply Finset.sum_congr rfl
      intro x _
      simp) t t.2
    simpa using this
  have h2 : rowSpan n mtx = Submodule.span (ZMod 2) (Set.range (fun t : Fin i => vec n mtx t)) := by
    apply le_antisymm
    · apply Submodule.span_le.2
      rintro v ⟨t, ht, rfl⟩
      by_cases hti : t < i
      · exact Submodule.subset_span ⟨⟨t, hti⟩, rfl⟩
      · have h0 : vec n mtx t = 0 := by
          funext c
          rcases hend with he | he
          · have := h.hz t (by omega) (by rw [← h.len]; exact ht) c (by rw [he]; exact c.2)
            simp [vec, bz, this]
          · rw [h.len] at ht; omega
        rw [h0]
        exact Submodule.zero_mem _
    · apply Submodule.span_mono
      rintro v ⟨t, rfl⟩
      exact ⟨t, by rw [h.len]; have := h.hi; omega, rfl⟩
  rw [h2, finrank_span_eq_card hli, Fintype.card_fin]

theorem rowSpan_congr_of (n : Nat) (A B : List (List UInt)) (hl : A.length = B.length)
    (h1 : ∀ t < A.length, vec n A t ∈ rowSpan n B) (h2 : ∀ t < B.length, vec n B t ∈ rowSpan n A) :
    rowSpan n A = rowSpan n B := by
  apply le_antisymm
  · apply Submodule.span_le.2
    rintro v ⟨t, ht, rfl⟩
    exact h1 t ht
  · apply Submodule.span_le.2
    rintro v ⟨t, ht, rfl⟩
    exact h2 t ht

theorem mem_rowSpan (n : Nat) (A : List (List UInt)) (t : Nat) (ht : t < A.length) : vec n A t ∈ rowSpan n A :=
  Submodule.subset_span ⟨t, ht, rfl⟩

theorem rankLoop_spec (n : Nat) (hn : n ≤ 32) (orig : List (List UInt)) : ∀ (todo j i : Nat) (mask : UInt) (mtx : List (List UInt)),
    j + todo = n → RkInv n orig j i mtx → (0 < j → mask = BitVec.twoPow 32 (j - 1)) →
    rankLoop orig.length n todo j i mask mtx = .ok (bitMatrix orig orig.length n).rank := by
  intro todo
  induction todo with
  | zero =>
    intro j i mask mtx hj h _
    rw [rankLoop, rank_of_inv n hn orig j i mtx h (by omega) (by left; omega)]
  | succ todo ih =>
    intro j i mask mtx hj h hmask
    rw [rankLoop]
    by_cases hi : i < orig.length
    swap
    · rw [if_neg hi, rank_of_inv n hn orig j i mtx h (by omega) (by right; have := h.hi; omega)]
    rw [if_pos hi]
    have hj32 : j < 32 := by omega
    have hm : (if j % 32 ≠ 0 then mask <<< 1 else 1) = BitVec.twoPow 32 j := by
      rw [Nat.mod_eq_of_lt hj32]
      by_cases h0 : j = 0
      · subst h0; rfl
      · rw [if_pos h0, hmask (by omega)]
        apply BitVec.eq_of_getLsbD_eq
        intro s hs
        rw [BitVec.getLsbD_shiftLeft, BitVec.getLsbD_twoPow, BitVec.getLsbD_twoPow]
        by_cases hs1 : s < 1
        · have : ¬ (j = s) := by omega
          simp [hs1, this]
        · have e : (j - 1 = s - 1) ↔ (j = s) := by omega
          have e2 : j - 1 < 32 := by omega
          simp only [hs1, hs, e, e2, hj32]; simp
    have hcol : j / 32 = 0 := by omega
    have hmax : (n - 1) / 32 - 0 + 1 = 1 := by omega
    simp only [hm, hcol, hmax]
    obtain ⟨k, k1, k2, k3, k4, k5⟩ := rankFind_spec mtx h.ne j hj32 (orig.length - i) i (by rw [h.len]; omega)
    rw [k1]
    simp only [Res.bind_ok]
    rw [h.len] at k3 k5
    by_cases hk : k < orig.length
    · rw [if_pos hk]
      obtain ⟨rowi, i1, i2, i3, i4⟩ := rd_row mtx h.ne i (by rw [h.len]; exact hi)
      obtain ⟨rowk, j1, j2, j3, j4⟩ := rd_row mtx h.ne k (by rw [h.len]; exact hk)
      rw [i1]; simp only [Res.bind_ok]
      rw [j1]; simp only [Res.bind_ok]
      rw [wr, if_pos (by rw [h.len]; exact hi)]; simp only [Res.bind_ok]
      rw [wr, if_pos (by simp [h.len]; exact hk)]; simp only [Res.bind_ok]
      have hWi : rowi.getD 0 0 = W mtx i := by rw [i2]; rfl
      have hWk : rowk.getD 0 0 = W mtx k := by rw [j2]; rfl
      obtain ⟨m1, hm1⟩ : ∃ m1, m1 = (mtx.set i rowk).set k rowi := ⟨_, rfl⟩
      have hm1W : ∀ t, W m1 t = if t = k then W mtx i else if t = i then W mtx k else W mtx t := by
        intro t
        rw [hm1, W_set _ _ _ _ (by simp [h.len]; exact hk), W_set _ _ _ _ (by rw [h.len]; exact hi), hWi, hWk]
      have hm1l : m1.length = orig.length := by rw [hm1]; simp [h.len]
      have hm1ne : NE m1 := by rw [hm1]; exact NE_set _ (NE_set _ h.ne _ _ j3) _ _ i3
      rw [← hm1]
      obtain ⟨m2, g1, g2, g3, g4⟩ := rankElim_spec i j hj32 (orig.length - (k + 1)) (k + 1) m1 hm1ne (by rw [hm1l]; omega) (by omega) (by rw [hm1l]; exact hi)
      rw [g1]
      simp only [Res.bind_ok]
      have hm1i : W m1 i = W mtx k := by
        rw [hm1W]
        by_cases hik : i = k
        · rw [if_pos hik, hik]
        · rw [if_neg hik, if_pos rfl]
      have hm2i : W m2 i = W mtx k := by
        rw [g4 i, if_neg (by omega), hm1i]
      have hm2old : ∀ t < i, W m2 t = W mtx t := by
        intro t ht
        rw [g4 t, if_neg (by omega), hm1W, if_neg (by omega), if_neg (by omega)]
      apply ih (j + 1) (i + 1) _ m2 (by omega)
      · refine ⟨by rw [g2, hm1l], g3, ?_, by omega, ?_, ?_⟩
        · -- span
          rw [← h.hspan]
          have s1 : rowSpan n m1 = rowSpan n mtx := by
            apply rowSpan_congr_of
            · rw [hm1l, h.len]
            · intro t ht
              have : vec n m1 t = vec n mtx (if t = k then i else if t = i then k else t) := by
                funext c
                simp only [vec, hm1W]
                by_cases ha : t = k
                · simp [ha]
                · by_cases hb : t = i
                  · subst hb; simp [ha]
                  · simp [ha, hb]
              rw [this]
              apply mem_rowSpan
              rw [h.len]
              rw [hm1l] at ht
              split
              · exact hi
              · split
                · exact hk
                · exact ht
            · intro t ht
              have : vec n mtx t = vec n m1 (if t = k then i else if t = i then k else t) := by
                funext c
                simp only [vec, hm1W]
                by_cases ha : t = k
                · subst ha
                  simp only [if_true]
                  by_cases hb : i = t
                  · simp [hb]
                  · simp [hb]
                · by_cases hb : t = i
                  · subst hb; simp [ha]
                  · simp [ha, hb]
              rw [this]
              apply mem_rowSpan
              rw [hm1l]
              rw [h.len] at ht
              split
              · exact hi
              · split
                · exact hk
                · exact ht
          rw [← s1]
          have hv : ∀ t, vec n m2 t = vec n m1 t ∨ (i ≠ t ∧ vec n m2 t = vec n m1 t + vec n m1 i) := by
            intro t
            by_cases hc : k + 1 ≤ t ∧ t < m1.length ∧ (W m1 t).getLsbD j = true
            · right
              refine ⟨by omega, ?_⟩
              funext c
              simp only [vec, Pi.add_apply, g4 t, if_pos hc, bz_xor]
            · left
              funext c
              simp only [vec, g4 t, if_neg hc]
          have hvi : vec n m2 i = vec n m1 i := by
            rcases hv i with hh | hh
            · exact hh
            · exact absurd rfl hh.1
          apply rowSpan_congr_of
          · rw [g2]
          · intro t ht
            rw [g2] at ht
            rcases hv t with hh | hh
            · rw [hh]; exact mem_rowSpan n m1 t ht
            · rw [hh.2]
              exact Submodule.add_mem _ (mem_rowSpan n m1 t ht) (mem_rowSpan n m1 i (by rw [hm1l]; exact hi))
          · intro t ht
            rw [← g2] at ht
            rcases hv t with hh | hh
            · rw [← hh]; exact mem_rowSpan n m2 t ht
            · have : vec n m1 t = vec n m2 t - vec n m2 i := by rw [hh.2, hvi]; simp
              rw [this]
              exact Submodule.sub_mem _ (mem_rowSpan n m2 t ht) (mem_rowSpan n m2 i (by rw [g2, hm1l]; exact hi))
        · -- zeros
          intro t ht1 ht2 c hc
          have hm1z : ∀ t, i + 1 ≤ t → t < orig.length → ∀ c < j, (W m1 t).getLsbD c = false := by
            intro t h1 h2 c hc
            rw [hm1W]
            split
            · exact h.hz i (Nat.le_refl _) hi c hc
            · split
              · exact h.hz k k2 hk c hc
              · exact h.hz t (by omega) h2 c hc
          rw [g4 t]
          by_cases hcj : c = j
          · subst hcj
            by_cases hcond : k + 1 ≤ t ∧ t < m1.length ∧ (W m1 t).getLsbD c = true
            · rw [if_pos hcond, BitVec.getLsbD_xor, hcond.2.2, hm1i, k5 hk]; rfl
            · rw [if_neg hcond]
              by_contra hb
              simp only [Bool.not_eq_false] at hb
              apply hcond
              refine ⟨?_, by rw [hm1l]; exact ht2, hb⟩
              by_contra hlt
              rw [hm1W] at hb
              by_cases htk : t = k
              · rw [if_pos htk] at hb
                have := k4 i (Nat.le_refl _) (by omega)
                rw [this] at hb; cases hb
              · rw [if_neg htk, if_neg (by omega)] at hb
                have := k4 t (by omega) (by omega)
                rw [this] at hb; cases hb
          · split
            · rw [BitVec.getLsbD_xor, hm1z t (by omega) ht2 c (by omega), hm1i, h.hz k k2 hk c (by omega)]; rfl
            · exact hm1z t (by omega) ht2 c (by omega)
        · -- independence
          intro a ha
          have hsum : ∀ c, (Finset.range (i + 1)).sum (fun t => a t * bz (W m2 t) c) =
              (Finset.range i).sum (fun t => a t * bz (W mtx t) c) + a i * bz (W mtx k) c := by
            intro c
            rw [Finset.sum_range_succ, hm2i]
            congr 1
            apply Finset.sum_congr rfl
            intro t ht
            rw [hm2old t (Finset.mem_range.1 ht)]
          have hold : ∀ t < i, a t = 0 := by
            apply h.hind
            intro c hc
            have := ha c (by omega)
            rw [hsum] at this
            have hz : bz (W mtx k) c = 0 := by simp [bz, h.hz k k2 hk c hc]
            rw [hz, mul_zero, add_zero] at this
            exact this
          have hlast : a i = 0 := by
            have := ha j (by omega)
            rw [hsum] at this
            have h1 : bz (W mtx k) j = 1 := by simp only [bz, k5 hk, if_true]
            rw [h1, mul_one, Finset.sum_eq_zero, zero_add] at this
            · exact this
            · intro t ht
              rw [hold t (Finset.mem_range.1 ht), zero_mul]
          intro t ht
          by_cases hti : t = i
          · rw [hti]; exact hlast
          · exact hold t (by omega)
      · intro _; rw [Nat.add_sub_cancel]
    · rw [if_neg hk]
      apply ih (j + 1) i _ mtx (by omega)
      · refine ⟨h.len, h.ne, h.hspan, h.hi, ?_, ?_⟩
        · intro t h1 h2 c hc
          by_cases hcj : c = j
          · subst hcj
            exact k4 t h1 (by omega)
          · exact h.hz t h1 h2 c (by omega)
        · intro a ha
          exact h.hind a (fun c hc => ha c (by omega))
      · intro _; rw [Nat.add_sub_cancel]

end Dh
