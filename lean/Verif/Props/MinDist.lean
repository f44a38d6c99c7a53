import Verif.Model.MinDist
import Mathlib.Algebra.BigOperators.Intervals
import Mathlib.Algebra.Order.BigOperators.Group.Finset
import Mathlib.Tactic.Linarith
import Mathlib.Tactic.NormNum
/-
C46: the minimum distance search.
-/
set_option linter.unusedSimpArgs false
namespace Dh
namespace Spec

/-- The Euclidean distance of two points in the first `dim` coordinates. -/
noncomputable def euclidDist (dim : Nat) (a b : List ℝ) : ℝ :=
  Real.sqrt (∑ i ∈ Finset.range dim, (a.getD i 0 - b.getD i 0) ^ 2)

end Spec

theorem rd_dflt {α : Type} (d : α) {a : List α} {i : Nat} (h : i < a.length) : rd a i = .ok (a.getD i d) := by
  rw [rd_ok h]; simp [List.getD, h]

theorem distLoop_spec (a b : List ℝ) : ∀ (todo i : Nat) (acc : ℝ), i + todo ≤ a.length → i + todo ≤ b.length →
    distLoop a b todo i acc = .ok (acc + ∑ k ∈ Finset.range todo, (a.getD (i + k) 0 - b.getD (i + k) 0) ^ 2) := by
  intro todo
  induction todo with
  | zero => intro i acc _ _; simp [distLoop]
  | succ todo ih =>
    intro i acc ha hb
    rw [distLoop, rd_dflt 0 (show i < a.length by omega), rd_dflt 0 (show i < b.length by omega)]
    simp only [Res.bind_ok]
    rw [ih (i + 1) _ (by omega) (by omega), Finset.sum_range_succ' _ todo, Nat.add_zero]
    congr 1
    have : ∀ k, i + 1 + k = i + (k + 1) := fun k => by omega
    simp only [this]
    ring

theorem distance_spec (a b : List ℝ) (dim : Nat) (ha : dim ≤ a.length) (hb : dim ≤ b.length) :
    distance a b dim = .ok (Spec.euclidDist dim a b) := by
  rw [distance, distLoop_spec a b dim 0 0 (by omega) (by omega), Res.bind_ok, Spec.euclidDist]
  simp

theorem euclidDist_symm (dim : Nat) (a b : List ℝ) : Spec.euclidDist dim a b = Spec.euclidDist dim b a := by
  rw [Spec.euclidDist, Spec.euclidDist]
  congr 1
  apply Finset.sum_congr rfl
  intro i _
  ring

/-- The distance is at least the difference of the first coordinates. -/
theorem first_le_dist (dim : Nat) (a b : List ℝ) (h : 1 ≤ dim) : a.getD 0 0 - b.getD 0 0 ≤ Spec.euclidDist dim a b := by
  rw [Spec.euclidDist]
  apply Real.le_sqrt_of_sq_le
  have : ∑ i ∈ ({0} : Finset Nat), (a.getD i 0 - b.getD i 0) ^ 2 ≤
      ∑ i ∈ Finset.range dim, (a.getD i 0 - b.getD i 0) ^ 2 := by
    apply Finset.sum_le_sum_of_subset_of_nonneg
    · intro x hx; simp at hx; subst hx; simp; omega
    · intro i _ _; exact sq_nonneg _
  simpa using this

/-- What the loops know: `m` is the cap or an occurring distance, and it does not exceed the distances of the pairs `(i, j)` in
`S`. -/
structure MinOver (points : List (List ℝ)) (dim : Nat) (cap : ℝ) (S : Nat → Nat → Prop) (m : ℝ) : Prop where
  le_cap : m ≤ cap
  le : ∀ i j, i < j → j < points.length → S i j → m ≤ Spec.euclidDist dim (points.getD i []) (points.getD j [])
  attained : m = cap ∨ ∃ i j, i < j ∧ j < points.length ∧ m = Spec.euclidDist dim (points.getD i []) (points.getD j [])

/-- The points are in the order of their first coordinates. -/
def FirstSorted (points : List (List ℝ)) : Prop := points.Pairwise fun a b => a.getD 0 0 ≤ b.getD 0 0

theorem FirstSorted.le {points : List (List ℝ)} (h : FirstSorted points) {i j : Nat} (hij : i ≤ j) (hj : j < points.length) :
    (points.getD i []).getD 0 0 ≤ (points.getD j []).getD 0 0 := by
  rcases Nat.lt_or_eq_of_le hij with hlt | rfl
  · have := List.pairwise_iff_getElem.1 h i j (by omega) hj hlt
    simpa [List.getD, hj, show i < points.length by omega] using this
  · exact le_refl _

theorem mdInner_spec (points : List (List ℝ)) (dim : Nat) (cap : ℝ) (hd1 : 1 ≤ dim) (hd : ∀ p ∈ points, dim ≤ p.length)
    (hs : FirstSorted points) (i : Nat) (S : Nat → Nat → Prop) :
    ∀ (todo j : Nat) (m : ℝ), i < j → j + todo = points.length →
      MinOver points dim cap (fun a b => S a b ∨ (a = i ∧ b < j)) m →
      ∃ m', mdInner points dim i todo j m = .ok m' ∧ MinOver points dim cap (fun a b => S a b ∨ a = i) m' := by
  intro todo
  induction todo with
  | zero =>
    intro j m hij hj h
    refine ⟨m, rfl, h.le_cap, fun a b hab hb hS => h.le a b hab hb ?_, h.attained⟩
    rcases hS with hS | hS
    · exact .inl hS
    · exact .inr ⟨hS, by omega⟩
  | succ todo ih =>
    intro j m hij hj h
    have hjl : j < points.length := by omega
    have hil : i < points.length := by omega
    have hmem : ∀ k, k < points.length → points.getD k [] ∈ points := by
      intro k hk
      have : points.getD k [] = points[k] := by simp [List.getD, hk]
      rw [this]; exact List.getElem_mem hk
    have hdj := hd _ (hmem j hjl)
    have hdi := hd _ (hmem i hil)
    rw [mdInner, rd_dflt [] hjl, rd_dflt [] hil]
    simp only [Res.bind_ok]
    rw [rd_dflt 0 (show 0 < (points.getD j []).length by omega), rd_dflt 0 (show 0 < (points.getD i []).length by omega)]
    simp only [Res.bind_ok]
    by_cases hb : (points.getD j []).getD 0 0 - (points.getD i []).getD 0 0 > m
    · rw [if_pos hb]
      refine ⟨m, rfl, h.le_cap, fun a b hab hbl hS => ?_, h.attained⟩
      rcases hS with hS | rfl
      · exact h.le a b hab hbl (.inl hS)
      · by_cases hbj : b < j
        · exact h.le a b hab hbl (.inr ⟨rfl, hbj⟩)
        · have h1 := hs.le (show j ≤ b by omega) hbl
          have h2 := first_le_dist dim (points.getD b []) (points.getD a []) hd1
          rw [euclidDist_symm] at h2
          linarith
    · rw [if_neg hb, distance_spec _ _ _ hdj hdi, Res.bind_ok]
      apply ih (j + 1) _ (by omega) (by omega)
      have he := euclidDist_symm dim (points.getD j []) (points.getD i [])
      rw [he]
      by_cases hlt : Spec.euclidDist dim (points.getD i []) (points.getD j []) < m
      · rw [if_pos hlt]
        refine ⟨by have := h.le_cap; linarith, fun a b hab hbl hS => ?_, .inr ⟨i, j, hij, hjl, rfl⟩⟩
        by_cases hc : a = i ∧ b = j
        · rw [hc.1, hc.2]
        · have := h.le a b hab hbl (by
            rcases hS with hS | hS
            · exact .inl hS
            · exact .inr ⟨hS.1, by omega⟩)
          linarith
      · rw [if_neg hlt]
        refine ⟨h.le_cap, fun a b hab hbl hS => ?_, h.attained⟩
        by_cases hc : a = i ∧ b = j
        · rw [hc.1, hc.2]; linarith
        · exact h.le a b hab hbl (by
            rcases hS with hS | hS
            · exact .inl hS
            · exact .inr ⟨hS.1, by omega⟩)

theorem mdOuter_spec (points : List (List ℝ)) (dim : Nat) (cap : ℝ) (hd1 : 1 ≤ dim) (hd : ∀ p ∈ points, dim ≤ p.length)
    (hs : FirstSorted points) :
    ∀ (todo i : Nat) (m : ℝ), i + todo = points.length → MinOver points dim cap (fun a _ => a < i) m →
      ∃ m', mdOuter points dim points.length todo i m = .ok m' ∧ MinOver points dim cap (fun _ _ => True) m' := by
  intro todo
  induction todo with
  | zero =>
    intro i m hi h
    exact ⟨m, rfl, h.le_cap, fun a b hab hb _ => h.le a b hab hb (by omega), h.attained⟩
  | succ todo ih =>
    intro i m hi h
    obtain ⟨m', h1, h2⟩ := mdInner_spec points dim cap hd1 hd hs i (fun a _ => a < i) (points.length - (i + 1)) (i + 1) m
      (by omega) (by omega) ⟨h.le_cap, fun a b hab hb hS => h.le a b hab hb (by omega), h.attained⟩
    rw [mdOuter, h1, Res.bind_ok]
    exact ih (i + 1) m' (by omega) ⟨h2.le_cap, fun a b hab hb hS => h2.le a b hab hb (by omega), h2.attained⟩

/-- **C46**.  For any points with at least `dim >= 1` coordinates, sorted by the first one in any way, the pruned search
computes the smallest distance of two of the points, or the cap if no distance is smaller: it is at most the cap and at most
every distance, and it is the cap or one of the distances. -/
theorem C46_min_distance (cap : ℝ) (dim : Nat) (points sorted : List (List ℝ)) (hd1 : 1 ≤ dim)
    (hd : ∀ p ∈ points, dim ≤ p.length) (hp : sorted.Perm points) (hs : FirstSorted sorted) :
    ∃ m, minDist cap dim sorted = .ok m ∧ m ≤ cap ∧
      (∀ i j, i < j → j < points.length → m ≤ Spec.euclidDist dim (points.getD i []) (points.getD j [])) ∧
      (m = cap ∨ ∃ i j, i < j ∧ j < points.length ∧ m = Spec.euclidDist dim (points.getD i []) (points.getD j [])) := by
  obtain ⟨m, h1, h2⟩ := mdOuter_spec sorted dim cap hd1 (fun p h => hd p (hp.mem_iff.1 h)) hs sorted.length 0 cap (by omega)
    ⟨le_refl _, fun a b _ _ h => by omega, .inl rfl⟩
  refine ⟨m, h1, h2.le_cap, fun i j hij hj => ?_, ?_⟩
  · have hpw : sorted.Pairwise fun a b => m ≤ Spec.euclidDist dim a b := by
      rw [List.pairwise_iff_getElem]
      intro i j hi hj hij
      have := h2.le i j hij hj trivial
      simpa [List.getD, hi, hj] using this
    have := (hp.pairwise_iff (fun {a b} h => by rw [euclidDist_symm]; exact h)).1 hpw
    have := List.pairwise_iff_getElem.1 this i j (by omega) hj hij
    simpa [List.getD, hj, show i < points.length by omega] using this
  · rcases h2.attained with h | ⟨i, j, hij, hj, hm⟩
    · exact .inl h
    · right
      have hn : ¬ points.Pairwise fun a b => m ≠ Spec.euclidDist dim a b := by
        intro hpw
        have := (hp.pairwise_iff (fun {a b} h => by rw [euclidDist_symm]; exact h)).2 hpw
        have := List.pairwise_iff_getElem.1 this i j (by omega) hj hij
        apply this
        rw [hm]
        simp [List.getD, hj, show i < sorted.length by omega]
      rw [List.pairwise_iff_getElem] at hn
      push Not at hn
      obtain ⟨i, j, hi, hj, hij, h⟩ := hn
      exact ⟨i, j, hij, hj, by rw [h]; simp [List.getD, hi, hj]⟩

/-- **C46**, the comparison function given to the sorting routine orders by the first coordinate. -/
theorem C46_compare (a b : List ℝ) (ha : 1 ≤ a.length) (hb : 1 ≤ b.length) :
    ∃ c, comparePoints a b = .ok c ∧ (0 < c ↔ b.getD 0 0 < a.getD 0 0) ∧ (c < 0 ↔ a.getD 0 0 < b.getD 0 0) := by
  rw [comparePoints, rd_dflt 0 (show 0 < a.length by omega), rd_dflt 0 (show 0 < b.length by omega)]
  simp only [Res.bind_ok]
  refine ⟨_, rfl, ?_, ?_⟩
  · split
    · constructor
      · intro _; linarith
      · intro _; omega
    · split
      · constructor
        · intro h; omega
        · intro _; linarith
      · constructor
        · intro h; omega
        · intro _; linarith
  · split
    · constructor
      · intro h; omega
      · intro _; linarith
    · split
      · constructor
        · intro _; linarith
        · intro _; omega
      · constructor
        · intro h; omega
        · intro _; linarith

/-- **C46** fails for more than 5 dimensions, the size of `dTuple`: the coordinates are accessed out of bounds. -/
theorem C46_dim_fails (a b : List ℝ) (dim : Nat) (ha : a.length = 5) (hb : b.length = 5) (h : 6 ≤ dim) :
    distance a b dim = .ub := by
  have : ∀ (n i : Nat) (acc : ℝ), i ≤ 5 → 6 ≤ i + n → distLoop a b n i acc = .ub := by
    intro n
    induction n with
    | zero => intro i acc h1 h2; omega
    | succ n ih =>
      intro i acc h1 h2
      rw [distLoop]
      by_cases hi : i = 5
      · rw [rd_ub (by omega)]; rfl
      · rw [rd_ok (show i < a.length by omega), rd_ok (show i < b.length by omega)]
        simp only [Res.bind_ok]
        exact ih (i + 1) _ (by omega) (by omega)
  rw [distance, this dim 0 0 (by omega) (by omega)]
  rfl

/-- Non-vacuity: three points of the plane at distances 5, 10 and 5 of each other. -/
example : ∃ m, minDist 10000 2 [[0, 0], [3, 4], [6, 8]] = .ok m ∧ m = 5 := by
  obtain ⟨m, h1, _, h3, h4⟩ := C46_min_distance 10000 2 [[0, 0], [3, 4], [6, 8]] [[0, 0], [3, 4], [6, 8]] (by omega)
    (by simp) (List.Perm.refl _) (by simp [FirstSorted]; norm_num)
  have e01 : Spec.euclidDist 2 [0, 0] [3, 4] = 5 := by
    rw [Spec.euclidDist, show (5 : ℝ) = Real.sqrt (5 ^ 2) from (Real.sqrt_sq (by norm_num)).symm]
    congr 1
    simp [Finset.sum_range_succ]
    norm_num
  have e12 : Spec.euclidDist 2 [3, 4] [6, 8] = 5 := by
    rw [Spec.euclidDist, show (5 : ℝ) = Real.sqrt (5 ^ 2) from (Real.sqrt_sq (by norm_num)).symm]
    congr 1
    simp [Finset.sum_range_succ]
    norm_num
  have e02 : Spec.euclidDist 2 [0, 0] [6, 8] = 10 := by
    rw [Spec.euclidDist, show (10 : ℝ) = Real.sqrt (10 ^ 2) from (Real.sqrt_sq (by norm_num)).symm]
    congr 1
    simp [Finset.sum_range_succ]
    norm_num
  have h01 := h3 0 1 (by omega) (by simp)
  simp only [List.getD_cons_zero, List.getD_cons_succ, e01] at h01
  refine ⟨m, h1, ?_⟩
  rcases h4 with h | ⟨i, j, hij, hj, h⟩
  · rw [h] at h01; norm_num at h01
  · have : (i = 0 ∧ j = 1) ∨ (i = 0 ∧ j = 2) ∨ (i = 1 ∧ j = 2) := by simp at hj; omega
    rcases this with ⟨rfl, rfl⟩ | ⟨rfl, rfl⟩ | ⟨rfl, rfl⟩
    · rw [h]; exact e01
    · simp only [List.getD_cons_zero, List.getD_cons_succ, e02] at h; rw [h] at h01; norm_num at h01
    · rw [h]; exact e12

end Dh
