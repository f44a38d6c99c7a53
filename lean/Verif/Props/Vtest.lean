import Verif.Model.Vtest
import Verif.Spec.Vtest
import Mathlib.Tactic.Linarith
import Mathlib.Algebra.Order.Field.Rat
import Mathlib.Tactic.Positivity
/-
Property C16: chi-square with tail pooling.
-/
set_option linter.unusedSimpArgs false
namespace Dh

structure VInv (cutoff : ℚ) (preset : Nat) (X Y : List ℚ) (i : Nat) (s : VLoc) : Prop where
  chi : s.chisq = ((bigCells cutoff ((X.zip Y).take i)).map pearson).sum
  dof : s.ndof = if preset = 0 then (bigCells cutoff ((X.zip Y).take i)).length else 0
  tail : (s.itail = none ∧ smallCells cutoff ((X.zip Y).take i) = [] ∧ s.x = X ∧ s.y = Y) ∨
    ∃ t, s.itail = some t ∧ t < i ∧ smallCells cutoff ((X.zip Y).take i) ≠ [] ∧
      s.x = X.set t (pooled (smallCells cutoff ((X.zip Y).take i))).1 ∧
      s.y = Y.set t (pooled (smallCells cutoff ((X.zip Y).take i))).2

theorem vtestLoop_inv (cutoff : ℚ) (preset : Nat) (X Y : List ℚ) (n : Nat) (hX : X.length = n) (hY : Y.length = n) :
    ∀ (todo i : Nat) (s : VLoc), i + todo = n → VInv cutoff preset X Y i s →
      ∃ s', vtestLoop cutoff preset todo i s = .ok s' ∧ VInv cutoff preset X Y n s' := by
  intro todo
  induction todo with
  | zero => intro i s h hi; exact ⟨s, rfl, by rw [← h]; exact hi⟩
  | succ todo ih =>
    intro i s h hi
    have hiX : i < X.length := by omega
    have hiY : i < Y.length := by omega
    have hz : i < (X.zip Y).length := by simp; omega
    have htake : (X.zip Y).take (i + 1) = (X.zip Y).take i ++ [(X[i], Y[i])] := by
      rw [List.take_succ_eq_append_getElem hz]; simp
    have hrdx : rd s.x i = .ok X[i] := by
      rcases hi.tail with ⟨-, -, h1, -⟩ | ⟨t, -, h1, -, h2, -⟩
      · rw [h1, rd_ok hiX]
      · rw [h2, rd_ok (by simpa using hiX), List.getElem_set_ne (by omega)]
    have hrdy : rd s.y i = .ok Y[i] := by
      rcases hi.tail with ⟨-, -, -, h1⟩ | ⟨t, -, h1, -, -, h2⟩
      · rw [h1, rd_ok hiY]
      · rw [h2, rd_ok (by simpa using hiY), List.getElem_set_ne (by omega)]
    rw [vtestLoop, hrdx, hrdy]
    simp only [Res.bind_ok]
    by_cases hc : Y[i] ≥ cutoff
    · rw [if_pos hc]
      apply ih (i + 1) _ (by omega)
      have hb : bigCells cutoff ((X.zip Y).take (i + 1)) = bigCells cutoff ((X.zip Y).take i) ++ [(X[i], Y[i])] := by
        rw [htake]; unfold bigCells; rw [List.filter_append]; simp [hc]
      have hs : smallCells cutoff ((X.zip Y).take (i + 1)) = smallCells cutoff ((X.zip Y).take i) := by
        rw [htake]; unfold smallCells; rw [List.filter_append]; simp [not_lt.2 hc]
      refine ⟨?_, ?_, ?_⟩
      · rw [hb, List.map_append, List.sum_append, ← hi.chi]; simp [pearson, sq]
      · rw [hb, List.length_append]; simp only [hi.dof]; split <;> simp_all
      · rw [hs]
        rcases hi.tail with h1 | ⟨t, h1, h2, h3⟩
        · exact Or.inl h1
        · exact Or.inr ⟨t, h1, by omega, h3⟩
    · rw [if_neg hc]
      have hb : bigCells cutoff ((X.zip Y).take (i + 1)) = bigCells cutoff ((X.zip Y).take i) := by
        rw [htake]; unfold bigCells; rw [List.filter_append]; simp [lt_of_not_ge hc]
      have hs : smallCells cutoff ((X.zip Y).take (i + 1)) = smallCells cutoff ((X.zip Y).take i) ++ [(X[i], Y[i])] := by
        rw [htake]; unfold smallCells; rw [List.filter_append]; simp [lt_of_not_ge hc]
      rcases hi.tail with ⟨h1, h2, h3, h4⟩ | ⟨t, h1, h2, h3, h4, h5⟩
      · rw [h1]
        apply ih (i + 1) _ (by omega)
        refine ⟨by rw [hb]; exact hi.chi, by rw [hb]; exact hi.dof, Or.inr ⟨i, rfl, by omega, ?_⟩⟩
        rw [hs, h2]
        simp [pooled, h3, h4]
      · rw [h1]
        simp only
        have htx : t < X.length := by omega
        have hty : t < Y.length := by omega
        rw [h4, h5, rd_ok (by simpa using hty), rd_ok (by simpa using htx)]
        simp only [Res.bind_ok, wr, List.length_set, if_pos htx, if_pos hty, List.getElem_set_self, List.set_set]
        apply ih (i + 1) _ (by omega)
        refine ⟨by rw [hb]; exact hi.chi, by rw [hb]; exact hi.dof, Or.inr ⟨t, rfl, by omega, ?_⟩⟩
        rw [hs]
        simp [pooled]

/-- C16.  `Vtest_eval` on a vector of cells: the statistic is the Pearson sum over the used cells
(those that make the cutoff, and the pooled rest if it does); it is non-negative; the degrees of
freedom are one less than the number of used cells (as an `unsigned int`) unless preset; the first
small cell ends up holding the pooled totals and no other cell changes. -/
theorem C16_vtest_eval (v : Vtest) (hx : v.x.length = v.nvec) (hy : v.y.length = v.nvec) (hc : 0 < v.cutoff) :
    ∃ w, vtestEval v = .ok w ∧
      w.chisq = ((usedCells v.cutoff (v.x.zip v.y)).map pearson).sum ∧ 0 ≤ w.chisq ∧
      (v.ndof = 0 → w.ndof = ((usedCells v.cutoff (v.x.zip v.y)).length + (2 ^ 32 - 1)) % 2 ^ 32) ∧
      (v.ndof ≠ 0 → w.ndof = v.ndof) ∧
      (smallCells v.cutoff (v.x.zip v.y) = [] → w.x = v.x ∧ w.y = v.y) ∧
      (smallCells v.cutoff (v.x.zip v.y) ≠ [] → ∃ t < v.nvec,
        w.x = v.x.set t (pooled (smallCells v.cutoff (v.x.zip v.y))).1 ∧
        w.y = v.y.set t (pooled (smallCells v.cutoff (v.x.zip v.y))).2) := by
  have hnn : ∀ cs : List (ℚ × ℚ), (∀ c ∈ cs, v.cutoff ≤ c.2) → 0 ≤ (cs.map pearson).sum := by
    intro cs
    induction cs with
    | nil => intro _; simp
    | cons c cs ih =>
      intro h
      have h1 := h c (by simp)
      have h2 := ih (fun c hc => h c (by simp [hc]))
      have h3 : 0 ≤ pearson c := by
        unfold pearson
        exact div_nonneg (sq_nonneg _) (by linarith)
      simp only [List.map_cons, List.sum_cons]
      linarith
  have hused : ∀ c ∈ usedCells v.cutoff (v.x.zip v.y), v.cutoff ≤ c.2 := by
    intro c hcm
    unfold usedCells at hcm
    rcases List.mem_append.1 hcm with h | h
    · have := (List.mem_filter.1 h).2
      simpa using this
    · split at h
      · next hh => rw [List.mem_singleton.1 h]; exact hh.2
      · simp at h
  obtain ⟨s, h1, h2⟩ := vtestLoop_inv v.cutoff v.ndof v.x v.y v.nvec hx hy v.nvec 0 ⟨v.x, v.y, 0, 0, none⟩ (by omega)
    ⟨by simp [bigCells], by simp [bigCells], Or.inl ⟨rfl, by simp [smallCells], rfl, rfl⟩⟩
  have htk : (v.x.zip v.y).take v.nvec = v.x.zip v.y := by
    apply List.take_of_length_le; simp; omega
  obtain ⟨hchi, hdof, htail⟩ := h2
  rw [htk] at hchi hdof htail
  unfold vtestEval
  rw [h1]
  simp only [Res.bind_ok]
  rcases htail with ⟨t1, t2, t3, t4⟩ | ⟨t, t1, t2, t3, t4, t5⟩
  · rw [t1]
    simp only [Res.bind_ok]
    have hu : usedCells v.cutoff (v.x.zip v.y) = bigCells v.cutoff (v.x.zip v.y) := by
      unfold usedCells; rw [if_neg (by simp [t2])]; simp
    refine ⟨_, rfl, by simp only; rw [hu, hchi], ?_, ?_, ?_, ?_, ?_⟩
    · simp only; rw [hchi, ← hu]; exact hnn _ hused
    · intro h0; simp only [h0, if_true] at hdof ⊢; rw [hdof, hu]; generalize (bigCells v.cutoff (v.x.zip v.y)).length = L; omega
    · intro h0; simp only [h0, if_false]
    · intro _; exact ⟨t3, t4⟩
    · intro h; exact absurd t2 h
  · rw [t1]
    simp only
    have htx : t < v.x.length := by omega
    have hty : t < v.y.length := by omega
    rw [t4, t5, rd_ok (by simpa using hty), rd_ok (by simpa using htx)]
    simp only [Res.bind_ok, List.getElem_set_self]
    by_cases hcut : v.cutoff ≤ (pooled (smallCells v.cutoff (v.x.zip v.y))).2
    · rw [if_pos hcut]
      simp only [Res.bind_ok]
      have hu : usedCells v.cutoff (v.x.zip v.y) = bigCells v.cutoff (v.x.zip v.y) ++ [pooled (smallCells v.cutoff (v.x.zip v.y))] := by
        unfold usedCells; rw [if_pos ⟨t3, hcut⟩]
      have hsum : s.chisq + ((pooled (smallCells v.cutoff (v.x.zip v.y))).1 - (pooled (smallCells v.cutoff (v.x.zip v.y))).2) *
          ((pooled (smallCells v.cutoff (v.x.zip v.y))).1 - (pooled (smallCells v.cutoff (v.x.zip v.y))).2) /
          (pooled (smallCells v.cutoff (v.x.zip v.y))).2 = ((usedCells v.cutoff (v.x.zip v.y)).map pearson).sum := by
        rw [hu, hchi, List.map_append, List.sum_append]; simp [pearson, sq]
      refine ⟨_, rfl, hsum, ?_, ?_, ?_, ?_, ?_⟩
      · simp only; rw [hsum]; exact hnn _ hused
      · intro h0; simp only [h0, if_true] at hdof ⊢; rw [hdof, hu, List.length_append, List.length_singleton]; generalize (bigCells v.cutoff (v.x.zip v.y)).length = L; omega
      · intro h0; simp only [h0, if_false]
      · intro h; exact absurd h t3
      · intro _; exact ⟨t, t2, rfl, rfl⟩
    · rw [if_neg hcut]
      simp only [Res.bind_ok]
      have hu : usedCells v.cutoff (v.x.zip v.y) = bigCells v.cutoff (v.x.zip v.y) := by
        unfold usedCells; rw [if_neg (fun h => hcut h.2)]; simp
      refine ⟨_, rfl, by simp only; rw [hu, hchi], ?_, ?_, ?_, ?_, ?_⟩
      · simp only; rw [hchi, ← hu]; exact hnn _ hused
      · intro h0; simp only [h0, if_true] at hdof ⊢; rw [hdof, hu]; generalize (bigCells v.cutoff (v.x.zip v.y)).length = L; omega
      · intro h0; simp only [h0, if_false]
      · intro h; exact absurd h t3
      · intro _; exact ⟨t, t2, rfl, rfl⟩

/-- C16.  Pooling loses nothing: the large cells and the pooled one together hold all
observations and all expectations. -/
theorem C16_mass (cutoff : ℚ) (cs : List (ℚ × ℚ)) :
    ((bigCells cutoff cs).map Prod.fst).sum + (pooled (smallCells cutoff cs)).1 = (cs.map Prod.fst).sum ∧
    ((bigCells cutoff cs).map Prod.snd).sum + (pooled (smallCells cutoff cs)).2 = (cs.map Prod.snd).sum ∧
    (bigCells cutoff cs).length + (smallCells cutoff cs).length = cs.length := by
  unfold bigCells smallCells pooled
  induction cs with
  | nil => simp
  | cons c cs ih =>
    obtain ⟨h1, h2, h3⟩ := ih
    by_cases h : cutoff ≤ c.2
    · simp only [List.filter_cons, h, decide_true, if_true, not_true, decide_false, Bool.false_eq_true, if_false,
        List.map_cons, List.sum_cons, List.length_cons]
      refine ⟨by linarith, by linarith, by omega⟩
    · simp only [List.filter_cons, h, decide_true, if_true, not_false_eq_true, decide_false, Bool.false_eq_true, if_false,
        List.map_cons, List.sum_cons, List.length_cons]
      simp only at h1 h2 h3
      refine ⟨by linarith, by linarith, by omega⟩

/-- C16.  The test a caller gets from `Vtest_create` and fills with observations and expectations counts
exactly the cells that expect at least five observations, and computes the degrees of freedom itself. -/
theorem C16_created (xs ys : List ℚ) (h : xs.length = ys.length) :
    ∃ w, vtestEval { vtestCreate xs.length with x := xs, y := ys } = .ok w ∧
      w.chisq = ((usedCells 5 (xs.zip ys)).map pearson).sum ∧
      w.ndof = ((usedCells 5 (xs.zip ys)).length + (2 ^ 32 - 1)) % 2 ^ 32 := by
  obtain ⟨w, h1, h2, -, h3, -⟩ := C16_vtest_eval { vtestCreate xs.length with x := xs, y := ys } rfl h.symm
    (by simp [vtestCreate])
  exact ⟨w, h1, h2, h3 rfl⟩

/-- C16, a corner: when no cell, pooled or not, makes the cutoff, the statistic is 0 and the
degrees of freedom wrap around to 4294967295. -/
theorem C16_no_cells (v : Vtest) (hx : v.x.length = v.nvec) (hy : v.y.length = v.nvec) (hc : 0 < v.cutoff)
    (h0 : v.ndof = 0) (hu : usedCells v.cutoff (v.x.zip v.y) = []) :
    ∃ w, vtestEval v = .ok w ∧ w.chisq = 0 ∧ w.ndof = 4294967295 := by
  obtain ⟨w, h1, h2, h3, h4, -⟩ := C16_vtest_eval v hx hy hc
  refine ⟨w, h1, by rw [h2, hu]; simp, by rw [h4 h0, hu]; simp⟩

/-- C16, a corner: evaluating twice is not evaluating once, the second pass pools again. -/
theorem C16_not_idempotent :
    ∃ v w w', v.x.length = v.nvec ∧ v.y.length = v.nvec ∧ vtestEval v = .ok w ∧ vtestEval w = .ok w' ∧ w.chisq ≠ w'.chisq := by
  refine ⟨⟨4, 0, 5, [7, 2, 6, 1], [10, 3, 3, 3], 0⟩, ⟨4, 1, 5, [7, 9, 6, 1], [10, 9, 3, 3], 9/10⟩,
    ⟨4, 1, 5, [7, 9, 7, 1], [10, 9, 6, 3], 16/15⟩, rfl, rfl, ?_, ?_, ?_⟩ <;> decide +kernel

example : vtestEval ⟨4, 0, 5, [7, 2, 5, 1], [10, 3, 3, 2], 0⟩ =
    .ok ⟨4, 1, 5, [7, 8, 5, 1], [10, 8, 3, 2], 9/10⟩ := by decide +kernel
example : vtestEval ⟨2, 0, 5, [1, 1], [1, 1], 0⟩ = .ok ⟨2, 4294967295, 5, [2, 1], [2, 1], 0⟩ := by decide +kernel

end Dh
