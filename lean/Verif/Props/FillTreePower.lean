import Verif.Props.FillKeyLaw
import Verif.Props.DctPower
/-
C156: what dab_filltree always finds.
-/
namespace Dh
open Spec

/-- The p-values of a default run, from its trees. -/
theorem ft1_default (gammaQ : ℝ → ℝ → ℝ) (key : Nat → Nat) (hk : ∀ n, key n ≠ 0) : ∃ l : List (Nat × Nat), Forest key 32 0 l ∧ l.length = 15000000 ∧
    fillTreeTest gammaQ key 0 15000000 = .ok (some
      (gammaQ (10 / 2) ((∑ c ∈ Finset.Ico 4 15, ((l.countP (fun t => t.1 == c + 1) : ℝ) - 15000000 * (ft1Table.getD c 0 : ℝ)) ^ 2 /
        (15000000 * (ft1Table.getD c 0 : ℝ))) / 2),
       gammaQ (15 / 2) ((∑ q ∈ Finset.range 16, ((l.countP (fun t => t.2 / 2 == q) : ℝ) - 937500) ^ 2 / 937500) / 2))) := by
  obtain ⟨l, counts, position, k1, f1, f2, -, k4, k5, k2, -, k3, -⟩ := C43_filltree key hk 0 15000000 (by omega) (by omega)
  rw [if_pos rfl] at f1 k3
  refine ⟨l, f1, f2, ?_⟩
  obtain ⟨ex, h1, h2, h3⟩ := ftRange_spec ft1Table 15000000 20 rfl 20 0 (List.replicate 20 0) 0 0 rfl (by simp) (fun j hj => absurd hj (Nat.not_lt_zero j))
  obtain ⟨ex', h4⟩ := ft1_range 15000000
  have hsc : ftScan (ft1Lt 15000000) (ft1Gt 15000000) 20 0 0 0 = (3, 15) := by decide +kernel
  rw [hsc] at h4
  rw [h4] at h1
  simp only [Res.ok.injEq, Prod.mk.injEq] at h1
  obtain ⟨rfl, -⟩ := h1
  have hw : wadd 3 1 = 4 := by decide
  rw [hw] at h4
  rw [fillTreeTest, h4, Res.bind_ok, k1, Res.bind_ok, fillTreeCycle, if_neg (by omega), Res.bind_ok, if_pos rfl, fillTreePvalues]
  have hws : wsub 15 4 = 11 := by decide
  have hsum : (0 + ∑ t ∈ Finset.range 11, (((counts.map (Nat.cast : Nat → ℝ)).drop 4).getD (0 + t) 0 -
      ((ex'.map (Rat.cast : ℚ → ℝ)).drop 4).getD (0 + t) 0) ^ 2 / ((ex'.map (Rat.cast : ℚ → ℝ)).drop 4).getD (0 + t) 0) =
      ∑ c ∈ Finset.Ico 4 15, ((l.countP (fun t => t.1 == c + 1) : ℝ) - 15000000 * (ft1Table.getD c 0 : ℝ)) ^ 2 / (15000000 * (ft1Table.getD c 0 : ℝ)) := by
    rw [zero_add, Finset.sum_Ico_eq_sum_range]
    refine Finset.sum_congr rfl fun t ht => ?_
    have := Finset.mem_range.1 ht
    have e := k4 (4 + t + 1) (by omega)
    rw [Nat.add_sub_cancel] at e
    rw [Nat.zero_add, getD_map_drop (Nat.cast : Nat → ℝ) 0 (by simp), getD_map_drop (Rat.cast : ℚ → ℝ) 0 (by simp), e, h3 _ (by omega)]
    push_cast
    rw [mul_comm ((ft1Table.getD (4 + t) 0 : ℚ) : ℝ)]
  have hsum2 : (0 + ∑ t ∈ Finset.range 16, ((position.map (Nat.cast : Nat → ℝ)).getD (0 + t) 0 -
      (List.replicate 16 ((937500 : ℕ) : ℝ)).getD (0 + t) 0) ^ 2 / (List.replicate 16 ((937500 : ℕ) : ℝ)).getD (0 + t) 0) =
      ∑ q ∈ Finset.range 16, ((l.countP (fun t => t.2 / 2 == q) : ℝ) - 937500) ^ 2 / 937500 := by
    rw [zero_add]
    refine Finset.sum_congr rfl fun t ht => ?_
    have ht' := Finset.mem_range.1 ht
    have e1 := getD_map_drop (Nat.cast : Nat → ℝ) 0 (by simp) position 0 t
    rw [List.drop_zero, Nat.zero_add, k5] at e1
    have e2 : (List.replicate 16 ((937500 : ℕ) : ℝ)).getD t 0 = (937500 : ℕ) := by
      rw [List.getD_eq_getElem _ _ (by simpa using ht'), List.getElem_replicate]
    rw [Nat.zero_add, e1, e2]
    norm_num
  simp only []
  rw [chisqPearson, hws, pearsonLoop_some _ _ _ _ _ (by simp [k2]) (by simp [h2]), Res.bind_ok, Res.bind_ok, chisqPearson,
    show 15000000 / (32 / 2) = 937500 by norm_num, show 32 / 2 = 16 by norm_num,
    pearsonLoop_some _ _ _ _ _ (by simp [k3]) (by simp), Res.bind_ok, Res.bind_ok, hsum, hsum2]
  norm_num

/-- **C156, missing results.**  In a default run of dab_filltree with keys other than 0, the second p-value is at most `exp(-234000)` if no
tree ends at some of the 16 positions, and the first one at most `exp(-800)` if no tree takes a certain number of keys, 5 to 14. -/
theorem C156_missing (key : Nat → Nat) (hk : ∀ n, key n ≠ 0) : ∃ p1 p2, fillTreeTest gammaTail key 0 15000000 = .ok (some (p1, p2)) ∧
    ((∃ q, q < 16 ∧ ∀ l, Forest key 32 0 l → l.length = 15000000 → ∀ t ∈ l, t.2 / 2 ≠ q) → 0 ≤ p2 ∧ p2 ≤ Real.exp (-234000)) ∧
    ((∃ c, 5 ≤ c ∧ c < 15 ∧ ∀ l, Forest key 32 0 l → l.length = 15000000 → ∀ t ∈ l, t.1 ≠ c) → 0 ≤ p1 ∧ p1 ≤ Real.exp (-800)) := by
  obtain ⟨l, h1, h2, h3⟩ := ft1_default gammaTail key hk
  refine ⟨_, _, h3, ?_, ?_⟩
  · rintro ⟨q, hq, hmiss⟩
    have h0 : l.countP (fun t => t.2 / 2 == q) = 0 := by
      rw [List.countP_eq_zero]
      intro t ht e
      exact hmiss l h1 h2 t ht (by simpa using e)
    have hc : (937500 : ℝ) ≤ ∑ q ∈ Finset.range 16, ((l.countP (fun t => t.2 / 2 == q) : ℝ) - 937500) ^ 2 / 937500 := by
      refine le_trans ?_ (Finset.single_le_sum (f := fun q => ((l.countP (fun t => t.2 / 2 == q) : ℝ) - 937500) ^ 2 / 937500)
        (fun _ _ => div_nonneg (sq_nonneg _) (by norm_num)) (Finset.mem_range.2 hq))
      simp only [h0]
      norm_num
    obtain ⟨g1, g2⟩ := gammaTail_exp (a := 15 / 2) (c := 937500) (by norm_num) (by norm_num) _ hc
    exact ⟨g1, g2.trans (Real.exp_le_exp.2 (by norm_num))⟩
  · rintro ⟨c, hc5, hc15, hmiss⟩
    have h0 : l.countP (fun t => t.1 == c - 1 + 1) = 0 := by
      rw [List.countP_eq_zero]
      intro t ht e
      have := hmiss l h1 h2 t ht
      simp only [beq_iff_eq] at e
      omega
    have hT : ∀ c ∈ Finset.Ico 4 15, (3528 : ℝ) ≤ 15000000 * (ft1Table.getD c 0 : ℝ) := by
      intro c hc
      have := Finset.mem_Ico.1 hc
      rw [ft1Table_getD c (by omega)]
      have h4 := this.1
      have h15 := this.2
      interval_cases c <;> norm_num [ft1Digits]
    have hc : (3528 : ℝ) ≤ ∑ c ∈ Finset.Ico 4 15, ((l.countP (fun t => t.1 == c + 1) : ℝ) - 15000000 * (ft1Table.getD c 0 : ℝ)) ^ 2 /
        (15000000 * (ft1Table.getD c 0 : ℝ)) := by
      have hmem : c - 1 ∈ Finset.Ico 4 15 := Finset.mem_Ico.2 (by omega)
      refine le_trans ?_ (Finset.single_le_sum (f := fun c => ((l.countP (fun t => t.1 == c + 1) : ℝ) - 15000000 * (ft1Table.getD c 0 : ℝ)) ^ 2 /
        (15000000 * (ft1Table.getD c 0 : ℝ))) (fun c hc => div_nonneg (sq_nonneg _) (by linarith [hT c hc])) hmem)
      have := hT _ hmem
      simp only [h0]
      rw [le_div_iff₀ (by linarith)]
      push_cast
      nlinarith
    obtain ⟨g1, g2⟩ := gammaTail_exp (a := 10 / 2) (c := 3528) (by norm_num) (by norm_num) _ hc
    exact ⟨g1, g2.trans (Real.exp_le_exp.2 (by norm_num))⟩

/-! ### Generators with four values -/

theorem descent_chain {right : Nat → Prop} {p : List Nat} {e d' : Nat} (h : Descent right 15 8 p e d') :
    (e = 23 → right 15 ∧ 15 ∈ p) ∧ (e = 27 → right 23 ∧ 23 ∈ p) ∧ (e = 29 → right 27 ∧ 27 ∈ p) ∧ (e / 2 = 15 → right 29 ∧ 15 ∈ p ∧ 23 ∈ p ∧ 27 ∈ p ∧ 29 ∈ p) := by
  rcases h with _ | ⟨_, r1, h⟩ | ⟨_, _, r1, h⟩
  · omega
  all_goals rcases h with _ | ⟨_, r2, h⟩ | ⟨_, _, r2, h⟩
  all_goals first
    | (refine ⟨?_, ?_, ?_, ?_⟩ <;> intro he <;> first | omega | exact ⟨r1, by simp⟩)
    | skip
  all_goals rcases h with _ | ⟨_, r3, h⟩ | ⟨_, _, r3, h⟩
  all_goals first
    | (refine ⟨?_, ?_, ?_, ?_⟩ <;> intro he <;> first | omega | exact ⟨r1, by simp⟩ | exact ⟨r2, by simp⟩)
    | skip
  all_goals rcases h with _ | ⟨_, r4, h⟩ | ⟨_, _, r4, h⟩
  all_goals first
    | (refine ⟨?_, ?_, ?_, ?_⟩ <;> intro he <;> first | omega | exact ⟨r1, by simp⟩ | exact ⟨r2, by simp⟩ | exact ⟨r3, by simp⟩)
    | skip
  all_goals rcases h with _ | ⟨h0, _, _⟩ | ⟨h0, _, _, _⟩
  all_goals first
    | (exact absurd h0 (by norm_num))
    | (refine ⟨?_, ?_, ?_, ?_⟩ <;> intro he <;> first | omega | exact ⟨r4, by simp⟩)

/-- The rightmost path of a tree of values in `V`, with 0 for empty nodes, ascends. -/
structure Ascends (V : Finset Nat) (a : List Nat) : Prop where
  len : a.length = 32
  mem : ∀ j, a.getD j 0 ≠ 0 → a.getD j 0 ∈ V
  one : a.getD 23 0 ≠ 0 → 0 < a.getD 15 0 ∧ a.getD 15 0 < a.getD 23 0
  two : a.getD 27 0 ≠ 0 → 0 < a.getD 23 0 ∧ a.getD 23 0 < a.getD 27 0
  three : a.getD 29 0 ≠ 0 → 0 < a.getD 27 0 ∧ a.getD 27 0 < a.getD 29 0

theorem fills_ascends {V : Finset Nat} (hV : V.card ≤ 4) {key : Nat → Nat} (hkV : ∀ n, key n ∈ V) {k : Nat} {a : List Nat} {n e : Nat}
    (h : Fills key 32 k a n e) : Ascends V a → e / 2 ≠ 15 := by
  induction h with
  | @full k a e hi =>
    intro ha he
    obtain ⟨p, e', d', h1, h2, -, h3⟩ := hi
    rcases h3 with ⟨h3, -⟩ | ⟨h3, -, -⟩
    · cases h3
    · cases h3
      obtain ⟨h4, m1, m2, m3, m4⟩ := (descent_chain h1).2.2.2 he
      have n1 := (h2 _ m1).2
      have n2 := (h2 _ m2).2
      have n3 := (h2 _ m3).2
      have n4 := (h2 _ m4).2
      have a1 := ha.one n2
      have a2 := ha.two n3
      have a3 := ha.three n4
      have hsub : ({a.getD 15 0, a.getD 23 0, a.getD 27 0, a.getD 29 0, key k} : Finset Nat) ⊆ V := by
        intro v hv
        simp only [Finset.mem_insert, Finset.mem_singleton] at hv
        rcases hv with rfl | rfl | rfl | rfl | rfl
        · exact ha.mem _ n1
        · exact ha.mem _ n2
        · exact ha.mem _ n3
        · exact ha.mem _ n4
        · exact hkV k
      have hcard : ({a.getD 15 0, a.getD 23 0, a.getD 27 0, a.getD 29 0, key k} : Finset Nat).card = 5 := by
        rw [Finset.card_insert_of_notMem, Finset.card_insert_of_notMem, Finset.card_insert_of_notMem, Finset.card_insert_of_notMem, Finset.card_singleton]
        all_goals simp only [Finset.mem_insert, Finset.mem_singleton]; omega
      have := Finset.card_le_card hsub
      omega
  | @more k a a' n e hi _ ih =>
    intro ha
    apply ih
    obtain ⟨p, e', d', h1, h2, he', h3⟩ := hi
    rcases h3 with ⟨-, -, h0, rfl⟩ | ⟨h3, -⟩
    · obtain ⟨c1, c2, c3, -⟩ := descent_chain h1
      have g : ∀ j, (a.set e' (key k)).getD j 0 = if j = e' then key k else a.getD j 0 := by
        intro j
        rw [getD_set _ _ _ _ he']
      have hm := ha.mem
      have o1 := ha.one
      have o2 := ha.two
      have o3 := ha.three
      have q1 : e' = 23 → 0 < a.getD 15 0 ∧ a.getD 15 0 < key k := fun h => ⟨Nat.pos_of_ne_zero (h2 _ (c1 h).2).2, (c1 h).1⟩
      have q2 : e' = 27 → 0 < a.getD 23 0 ∧ a.getD 23 0 < key k := fun h => ⟨Nat.pos_of_ne_zero (h2 _ (c2 h).2).2, (c2 h).1⟩
      have q3 : e' = 29 → 0 < a.getD 27 0 ∧ a.getD 27 0 < key k := fun h => ⟨Nat.pos_of_ne_zero (h2 _ (c3 h).2).2, (c3 h).1⟩
      have z : ∀ j, j = e' → a.getD j 0 = 0 := fun j hj => hj ▸ h0
      refine ⟨by rw [List.length_set]; exact ha.len, fun j hj => ?_, ?_, ?_, ?_⟩
      · rw [g] at hj ⊢
        by_cases hje : j = e'
        · rw [if_pos hje]; exact hkV k
        · rw [if_neg hje] at hj ⊢; exact hm j hj
      · have z1 := z 15
        have z2 := z 23
        rw [g, g]
        split <;> split <;> omega
      · have z1 := z 23
        have z2 := z 27
        rw [g, g]
        split <;> split <;> omega
      · have z1 := z 27
        have z2 := z 29
        rw [g, g]
        split <;> split <;> omega
    · cases h3

theorem ascends_empty (V : Finset Nat) : Ascends V (List.replicate 32 0) := by
  have g : ∀ j, (List.replicate 32 0).getD j 0 = 0 := fun j => by
    rw [List.getD_eq_getElem?_getD, List.getElem?_replicate]
    split <;> rfl
  exact ⟨rfl, fun j h => absurd (g j) h, fun h => absurd (g _) h, fun h => absurd (g _) h, fun h => absurd (g _) h⟩

theorem forest_ascends {V : Finset Nat} (hV : V.card ≤ 4) {key : Nat → Nat} (hkV : ∀ n, key n ∈ V) {k : Nat} {l : List (Nat × Nat)}
    (h : Forest key 32 k l) : ∀ t ∈ l, t.2 / 2 ≠ 15 := by
  induction h with
  | nil => intro t ht; cases ht
  | cons hf _ ih =>
    intro t ht
    rcases List.mem_cons.1 ht with rfl | ht
    · exact fills_ascends hV hkV hf (ascends_empty V)
    · exact ih t ht

/-- **C156, four values.**  Keys with at most four values, in whatever order, are always found out: the path that always turns right
needs five, so that no tree ends at the last position. -/
theorem C156_four (key : Nat → Nat) (hk : ∀ n, key n ≠ 0) (V : Finset Nat) (hV : V.card ≤ 4) (hkV : ∀ n, key n ∈ V) :
    ∃ p1 p2, fillTreeTest gammaTail key 0 15000000 = .ok (some (p1, p2)) ∧ 0 ≤ p2 ∧ p2 ≤ Real.exp (-234000) := by
  obtain ⟨p1, p2, h1, h2, -⟩ := C156_missing key hk
  exact ⟨p1, p2, h1, h2 ⟨15, by omega, fun l hl _ => forest_ascends hV hkV hl⟩⟩

/-- With five values the last position can be reached: the keys 1, 2, 3, 4, 5. -/
example : fillTree (fun n => n % 5 + 1) 0 1 = .ok (some ([0, 0, 0, 0, 1, 0, 0, 0, 0, 0, 0, 0, 0, 0, 0, 0, 0, 0, 0, 0],
    [0, 0, 0, 0, 0, 0, 0, 0, 0, 0, 0, 0, 0, 0, 0, 1])) := by decide +kernel

/-- Two bits of any sequence, with 1 added. -/
example (x : Nat → Nat) : ∃ p1 p2, fillTreeTest gammaTail (fun n => x n % 4 + 1) 0 15000000 = .ok (some (p1, p2)) ∧ 0 ≤ p2 ∧ p2 ≤ Real.exp (-234000) :=
  C156_four _ (fun _ => Nat.succ_ne_zero _) (Finset.Icc 1 4) (by decide) fun n => Finset.mem_Icc.2 (by omega)

end Dh
