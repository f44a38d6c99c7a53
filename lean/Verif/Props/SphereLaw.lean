import Verif.Model.MinDistTest
import Verif.Props.MinDist
import Verif.Props.Sphere3
import Verif.Proof.BallPairs
import Verif.Proof.UnifSeq
import Mathlib.Analysis.Calculus.Deriv.MeanValue
import Mathlib.Analysis.Complex.ExponentialBounds
/-
C109 and C110: the p-values of the minimum distance tests on independent uniform deviates.
-/
namespace Dh
open MeasureTheory ProbabilityTheory Spec

/-! ### The points -/

theorem wr_in {α : Type} (t : List α) (i : Nat) (x : α) (h : i < t.length) : wr t i x = .ok (t.set i x) := by rw [wr, if_pos h]

theorem mdCoords_spec (u : ℕ → ℝ) (scale : ℝ) : ∀ (todo d x : Nat) (c : List ℝ), d + todo ≤ c.length →
    ∃ c', mdCoords u scale todo d x c = .ok c' ∧ c'.length = c.length ∧ (∀ k, k < todo → c'.getD (d + k) 0 = u (x + k) * scale) ∧
      ∀ k, k < d → c'.getD k 0 = c.getD k 0 := by
  intro todo
  induction todo with
  | zero => exact fun d x c _ => ⟨c, rfl, rfl, fun k h => absurd h (Nat.not_lt_zero _), fun _ _ => rfl⟩
  | succ n ih =>
    intro d x c h
    obtain ⟨c', h1, h2, h3, h4⟩ := ih (d + 1) (x + 1) (c.set d (u x * scale)) (by rw [List.length_set]; omega)
    refine ⟨c', ?_, by rw [h2, List.length_set], fun k hk => ?_, fun k hk => ?_⟩
    · rw [mdCoords, wr_in _ _ _ (by omega)]
      exact h1
    · cases k with
      | zero =>
        rw [Nat.add_zero, h4 d (by omega)]
        simp [List.getD, show d < c.length by omega]
      | succ k =>
        rw [show d + (k + 1) = d + 1 + k by omega, h3 k (by omega), show x + 1 + k = x + (k + 1) by omega]
    · rw [h4 k (by omega)]
      simp [List.getD, show d ≠ k by omega]

theorem mdPoints_spec (u : ℕ → ℝ) (scale : ℝ) (dim : Nat) : ∀ (todo t x : Nat) (mem : List (List ℝ)), t + todo ≤ mem.length →
    (∀ p ∈ mem, dim ≤ p.length) →
    ∃ pts, mdPoints u scale dim todo t x mem = .ok pts ∧ pts.length = mem.length ∧ (∀ p ∈ pts, dim ≤ p.length) ∧
      (∀ s, s < todo → ∀ k, k < dim → (pts.getD (t + s) []).getD k 0 = u (x + dim * s + k) * scale) ∧
      ∀ s, s < t → pts.getD s [] = mem.getD s [] := by
  intro todo
  induction todo with
  | zero => exact fun t x mem _ hm => ⟨mem, rfl, rfl, hm, fun k h => absurd h (Nat.not_lt_zero _), fun _ _ => rfl⟩
  | succ n ih =>
    intro t x mem h hm
    have ht : t < mem.length := by omega
    obtain ⟨c, g1, g2, g3, -⟩ := mdCoords_spec u scale dim 0 x mem[t] (by have := hm _ (List.getElem_mem ht); omega)
    have hm' : ∀ p ∈ mem.set t c, dim ≤ p.length := by
      intro p hp
      rcases List.mem_or_eq_of_mem_set hp with h | rfl
      · exact hm p h
      · rw [g2]; exact hm _ (List.getElem_mem ht)
    obtain ⟨pts, h1, h2, h3, h4, h5⟩ := ih (t + 1) (x + dim) (mem.set t c) (by rw [List.length_set]; omega) hm'
    refine ⟨pts, ?_, by rw [h2, List.length_set], h3, fun s hs k hk => ?_, fun s hs => ?_⟩
    · rw [mdPoints, rd_ok ht]
      simp only [Res.bind_ok]
      rw [g1]
      simp only [Res.bind_ok]
      rw [wr_in _ _ _ ht]
      exact h1
    · cases s with
      | zero =>
        rw [Nat.add_zero, h5 t (by omega)]
        have : (mem.set t c).getD t [] = c := by simp [List.getD, ht]
        rw [this, Nat.mul_zero, Nat.add_zero]
        have := g3 k hk
        rwa [Nat.zero_add] at this
      | succ s =>
        rw [show t + (s + 1) = t + 1 + s by omega, h4 s (by omega) k hk]
        rw [show x + dim + dim * s + k = x + dim * (s + 1) + k by ring]
    · rw [h5 s (by omega)]
      simp [List.getD, show t ≠ s by omega]

theorem dist_unitPoint (d : ℕ) (u : ℕ → ℝ) (scale : ℝ) (hs : 0 ≤ scale) (a b : List ℝ) (i j : ℕ)
    (ha : ∀ k, k < d → a.getD k 0 = u (d * i + k) * scale) (hb : ∀ k, k < d → b.getD k 0 = u (d * j + k) * scale) :
    euclidDist d a b = scale * dist (unitPoint d u i) (unitPoint d u j) := by
  rw [EuclideanSpace.dist_eq, euclidDist, Finset.sum_range]
  have : ∀ k : Fin d, (a.getD k 0 - b.getD k 0) ^ 2 = scale ^ 2 * dist ((unitPoint d u i).ofLp k) ((unitPoint d u j).ofLp k) ^ 2 := fun k => by
    rw [ha k k.2, hb k k.2, Real.dist_eq, sq_abs]
    show _ = scale ^ 2 * (u (d * i + k) - u (d * j + k)) ^ 2
    ring
  rw [Finset.sum_congr rfl fun k _ => this k, ← Finset.mul_sum, Real.sqrt_mul (sq_nonneg _), Real.sqrt_sq hs]

/-- What `gsl_heapsort` with `compare_points` does. -/
def Spec.Sorts (sort : List (List ℝ) → List (List ℝ)) : Prop := ∀ l, (sort l).Perm l ∧ FirstSorted (sort l)

/-- The minimum distance found, in terms of the points of the unit cube. -/
theorem md_found (u : ℕ → ℝ) (scale : ℝ) (hs : 0 ≤ scale) (sort : List (List ℝ) → List (List ℝ)) (hsort : Spec.Sorts sort) (dim : Nat) (hd : 1 ≤ dim)
    (mem : List (List ℝ)) (hm : ∀ p ∈ mem, dim ≤ p.length) (cap : ℝ) :
    ∃ pts m, mdPoints u scale dim mem.length 0 0 mem = .ok pts ∧ minDist cap dim (sort pts) = .ok m ∧ m ≤ cap ∧
      (∀ i j, i < j → j < mem.length → m ≤ scale * dist (unitPoint dim u i) (unitPoint dim u j)) ∧
      (m = cap ∨ ∃ i j, i < j ∧ j < mem.length ∧ m = scale * dist (unitPoint dim u i) (unitPoint dim u j)) := by
  obtain ⟨pts, h1, h2, h3, h4, -⟩ := mdPoints_spec u scale dim mem.length 0 0 mem (by omega) hm
  obtain ⟨m, g1, g2, g3, g4⟩ := C46_min_distance cap dim pts (sort pts) hd h3 (hsort pts).1 (hsort pts).2
  have hpt : ∀ s, s < mem.length → ∀ k, k < dim → (pts.getD s []).getD k 0 = u (dim * s + k) * scale := fun s hs k hk => by
    have := h4 s hs k hk
    rwa [Nat.zero_add, Nat.zero_add] at this
  have he : ∀ i j, i < j → j < mem.length → euclidDist dim (pts.getD i []) (pts.getD j []) = scale * dist (unitPoint dim u i) (unitPoint dim u j) :=
    fun i j hij hj => dist_unitPoint dim u scale hs _ _ i j (hpt i (by omega)) (hpt j hj)
  rw [h2] at g3 g4
  refine ⟨pts, m, h1, g1, g2, fun i j hij hj => he i j hij hj ▸ g3 i j hij hj, ?_⟩
  rcases g4 with g | ⟨i, j, hij, hj, g⟩
  · exact .inl g
  · exact .inr ⟨i, j, hij, hj, he i j hij hj ▸ g⟩

variable {Ω : Type*} [MeasurableSpace Ω] {μ : Measure Ω} [IsProbabilityMeasure μ]

theorem md_law {U : ℕ → Ω → ℝ} (hm : ∀ i, Measurable (U i)) (hi : iIndepFun U μ) (hl : ∀ i, μ.map (U i) = volume.restrict (Set.Icc 0 1))
    (d n : ℕ) (r : ℝ) (hr : 0 ≤ r) (S : Set Ω)
    (hS : ∀ ω, ω ∈ S ↔ ∃ i j, i < j ∧ j < n ∧ dist (unitPoint d (fun k => U k ω) i) (unitPoint d (fun k => U k ω) j) ≤ r) (l : ℝ)
    (hlam : n * (n - 1) / 2 * volume.real (Metric.closedBall (0 : EuclideanSpace ℝ (Fin d)) r) = l) :
    μ.real S ≤ l ∧ (2 * r ≤ 1 → l * (1 - 2 * r) ^ d - l ^ 2 / 2 ≤ μ.real S) := by
  have e : S = {ω | ∃ i j, i < j ∧ j < n ∧ dist (unitPoint d (fun k => U k ω) i) (unitPoint d (fun k => U k ω) j) ≤ r} := Set.ext hS
  rw [e, ← hlam]
  exact ⟨some_pair_close hm hi hl d n r, fun h => some_pair_close_ge hm hi hl d n r hr h⟩

theorem log_bounds {α : ℝ} (h0 : 0 ≤ α) (h1 : α < 1) : α ≤ -Real.log (1 - α) ∧ -Real.log (1 - α) ≤ α / (1 - α) := by
  constructor
  · have := Real.log_le_sub_one_of_pos (show 0 < 1 - α by linarith)
    linarith
  · have := Real.one_sub_inv_le_log_of_pos (show 0 < 1 - α by linarith)
    have hne : 1 - α ≠ 0 := by linarith
    have h : α / (1 - α) = (1 - α)⁻¹ - 1 := by field_simp; ring
    linarith

theorem exp_le_iff {α x : ℝ} (h1 : α < 1) : 1 - Real.exp (-x) ≤ α ↔ x ≤ -Real.log (1 - α) := by
  rw [sub_le_comm, ← Real.log_le_iff_le_exp (by linarith)]
  exact le_neg

theorem vol2 (r : ℝ) (hr : 0 ≤ r) : volume.real (Metric.closedBall (0 : EuclideanSpace ℝ (Fin 2)) r) = r ^ 2 * Real.pi := by
  rw [measureReal_def, EuclideanSpace.volume_closedBall_fin_two, ENNReal.toReal_mul, ENNReal.toReal_pow, ENNReal.toReal_ofReal hr,
    ENNReal.toReal_ofReal Real.pi_pos.le]

theorem vol3 (r : ℝ) (hr : 0 ≤ r) : volume.real (Metric.closedBall (0 : EuclideanSpace ℝ (Fin 3)) r) = r ^ 3 * (Real.pi * 4 / 3) := by
  rw [measureReal_def, EuclideanSpace.volume_closedBall_fin_three, ENNReal.toReal_mul, ENNReal.toReal_pow, ENNReal.toReal_ofReal hr,
    ENNReal.toReal_ofReal (by positivity)]

/-- **C109, two dimensions.**  On independent uniform deviates the p-value of the minimum distance test with `n` points is at most
`α` with probability at most `λ` and, for `α` not too near 1, at least `λ(1-2r)² - λ²/2`; here `λ` is 0.995·10⁻⁸·π·n(n-1)/2 times
`-ln(1-α)` and `r` the critical distance on the scale of the unit square. -/
theorem C109_2dsphere_general {U : ℕ → Ω → ℝ} (hm : ∀ i, Measurable (U i)) (hi : iIndepFun U μ)
    (hl : ∀ i, μ.map (U i) = volume.restrict (Set.Icc 0 1)) (sort : List (List ℝ) → List (List ℝ)) (hsort : Spec.Sorts sort)
    (mem : List (List ℝ)) (hmem : ∀ p ∈ mem, p.length = 5) (n : ℕ) (hn : mem.length = n) (hn2 : 2 ≤ n) (α : ℝ) (h0 : 0 ≤ α) (h1 : α < 1)
    (l r : ℝ) (hlam : l = 0.995 / 10 ^ 8 * Real.pi * (n * (n - 1) / 2) * (-Real.log (1 - α)))
    (hr : r = Real.sqrt (0.995 * (-Real.log (1 - α))) / 10000) :
    (∀ ω, ∃ p, diehard2dsphere (fun i => U i ω) sort mem = .ok p ∧ 0 ≤ p ∧ p < 1) ∧
      μ.real {ω | ∃ p, diehard2dsphere (fun i => U i ω) sort mem = .ok p ∧ p ≤ α} ≤ l ∧
      (2 * r ≤ 1 → l * (1 - 2 * r) ^ 2 - l ^ 2 / 2 ≤ μ.real {ω | ∃ p, diehard2dsphere (fun i => U i ω) sort mem = .ok p ∧ p ≤ α}) := by
  obtain ⟨hL, -⟩ := log_bounds h0 h1
  obtain ⟨L, hLdef⟩ : ∃ L, L = -Real.log (1 - α) := ⟨_, rfl⟩
  rw [← hLdef] at hlam hr hL
  have hL0 : 0 ≤ L := le_trans h0 hL
  have hr0 : 0 ≤ r := by rw [hr]; positivity
  have hrr : (10000 * r) ^ 2 = 0.995 * L := by
    rw [hr, mul_div_cancel₀ _ (by norm_num), Real.sq_sqrt (by positivity)]
  have hrun : ∀ ω, ∃ m, diehard2dsphere (fun i => U i ω) sort mem = .ok (1 - Real.exp (-(m * m / 0.995))) ∧ 0 ≤ m ∧ m ≤ 10000 ∧
      (∀ i j, i < j → j < n → m ≤ 10000 * dist (unitPoint 2 (fun k => U k ω) i) (unitPoint 2 (fun k => U k ω) j)) ∧
      (m = 10000 ∨ ∃ i j, i < j ∧ j < n ∧ m = 10000 * dist (unitPoint 2 (fun k => U k ω) i) (unitPoint 2 (fun k => U k ω) j)) := fun ω => by
    obtain ⟨pts, m, g1, g2, g3, g4, g5⟩ := md_found (fun k => U k ω) 10000 (by norm_num) sort hsort 2 (by omega) mem
      (fun p hp => by rw [hmem p hp]; omega) 10000
    rw [hn] at g4 g5
    refine ⟨m, ?_, ?_, g3, g4, g5⟩
    · rw [diehard2dsphere, g1]
      simp only [Res.bind_ok]
      rw [g2]
      simp only [Res.bind_ok]
      rw [neg_mul, neg_div]
    · rcases g5 with g | ⟨i, j, -, -, g⟩
      · rw [g]; norm_num
      · rw [g]; positivity
  refine ⟨fun ω => ?_, ?_⟩
  · obtain ⟨m, e, -⟩ := hrun ω
    refine ⟨_, e, ?_, by linarith [Real.exp_pos (-(m * m / 0.995))]⟩
    have : Real.exp (-(m * m / 0.995)) ≤ 1 := Real.exp_le_one_iff.2 (by have := mul_self_nonneg m; rw [neg_nonpos]; positivity)
    linarith
  · have hle : ∀ ω, (∃ p, diehard2dsphere (fun i => U i ω) sort mem = .ok p ∧ p ≤ α) ↔
        ∃ m, diehard2dsphere (fun i => U i ω) sort mem = .ok (1 - Real.exp (-(m * m / 0.995))) ∧ 0 ≤ m ∧ m ≤ 10000 * r ∧ m ≤ 10000 ∧
      (∀ i j, i < j → j < n → m ≤ 10000 * dist (unitPoint 2 (fun k => U k ω) i) (unitPoint 2 (fun k => U k ω) j)) ∧
      (m = 10000 ∨ ∃ i j, i < j ∧ j < n ∧ m = 10000 * dist (unitPoint 2 (fun k => U k ω) i) (unitPoint 2 (fun k => U k ω) j)) := fun ω => by
      obtain ⟨m, e, g0, g1, g2, g3⟩ := hrun ω
      have hiff : ∀ m : ℝ, 0 ≤ m → (1 - Real.exp (-(m * m / 0.995)) ≤ α ↔ m ≤ 10000 * r) := fun m g0 => by
        rw [exp_le_iff h1, ← hLdef, div_le_iff₀ (by norm_num), mul_comm L, ← hrr, ← sq]
        exact pow_le_pow_iff_left₀ g0 (by positivity) (by norm_num)
      constructor
      · rintro ⟨p, hp, hpa⟩
        rw [e] at hp
        injection hp with hp
        rw [← hp] at hpa
        exact ⟨m, e, g0, (hiff m g0).1 hpa, g1, g2, g3⟩
      · rintro ⟨m, e, g0, g1, -⟩
        exact ⟨_, e, (hiff m g0).2 g1⟩
    have hcard : (1 : ℝ) ≤ n * (n - 1) / 2 := by
      have : (2 : ℝ) ≤ n := by exact_mod_cast hn2
      nlinarith
    have hvol : n * (n - 1) / 2 * volume.real (Metric.closedBall (0 : EuclideanSpace ℝ (Fin 2)) r) = l := by
      rw [vol2 r hr0, hlam]
      have : r ^ 2 = 0.995 * L / 10 ^ 8 := by rw [← hrr]; ring
      rw [this]
      ring
    by_cases hr1 : r < 1
    · refine md_law hm hi hl 2 n r hr0 _ (fun ω => ?_) l hvol
      rw [Set.mem_ofPred_eq, hle ω]
      constructor
      · rintro ⟨m, -, -, g1, -, -, g4 | ⟨i, j, hij, hj, g⟩⟩
        · exact absurd g1 (by rw [g4]; linarith)
        · exact ⟨i, j, hij, hj, by linarith⟩
      · rintro ⟨i, j, hij, hj, g⟩
        obtain ⟨m, e, g0, g1, g2, g3⟩ := hrun ω
        exact ⟨m, e, g0, by linarith [g2 i j hij hj], g1, g2, g3⟩
    · refine ⟨?_, fun h => by linarith⟩
      have : μ.real {ω | ∃ p, diehard2dsphere (fun i => U i ω) sort mem = .ok p ∧ p ≤ α} ≤ 1 := measureReal_le_one
      refine le_trans this ?_
      rw [← hvol, vol2 r hr0]
      have h3 := Real.pi_gt_three
      have : 1 ≤ r ^ 2 := one_le_pow₀ (by linarith)
      have : 1 ≤ r ^ 2 * Real.pi := by nlinarith
      nlinarith

/-- **C109, the default 8000 points**: to first order the p-value is below `α` with probability `α`. -/
theorem C109_2dsphere {U : ℕ → Ω → ℝ} (hm : ∀ i, Measurable (U i)) (hi : iIndepFun U μ)
    (hl : ∀ i, μ.map (U i) = volume.restrict (Set.Icc 0 1)) (sort : List (List ℝ) → List (List ℝ)) (hsort : Spec.Sorts sort)
    (mem : List (List ℝ)) (hmem : ∀ p ∈ mem, p.length = 5) (hn : mem.length = 8000) (α : ℝ) (h0 : 0 ≤ α) (h1 : α < 1) :
    μ.real {ω | ∃ p, diehard2dsphere (fun i => U i ω) sort mem = .ok p ∧ p ≤ α} ≤ 1.0002 * (α / (1 - α)) ∧
      (α ≤ 1 / 2 → 0.9997 * α - 0.5002 * (α / (1 - α)) ^ 2 ≤
        μ.real {ω | ∃ p, diehard2dsphere (fun i => U i ω) sort mem = .ok p ∧ p ≤ α}) := by
  obtain ⟨-, g1, g2⟩ := C109_2dsphere_general hm hi hl sort hsort mem hmem 8000 hn (by omega) α h0 h1 _ _ rfl rfl
  obtain ⟨hL, hL2⟩ := log_bounds h0 h1
  obtain ⟨L, hLdef⟩ : ∃ L, L = -Real.log (1 - α) := ⟨_, rfl⟩
  rw [← hLdef] at g1 g2 hL hL2
  have hL0 : 0 ≤ L := le_trans h0 hL
  have hp1 := Real.pi_gt_d6
  have hp2 := Real.pi_lt_d6
  obtain ⟨l, hlam⟩ : ∃ l, l = 0.995 / 10 ^ 8 * Real.pi * (((8000 : ℕ) : ℝ) * ((8000 : ℕ) - 1) / 2) * L := ⟨_, rfl⟩
  rw [← hlam] at g1 g2
  have hl1 : 1.0001 * L ≤ l := by rw [hlam]; refine mul_le_mul_of_nonneg_right ?_ hL0; push_cast; linarith
  have hl2 : l ≤ 1.0002 * L := by rw [hlam]; refine mul_le_mul_of_nonneg_right ?_ hL0; push_cast; linarith
  refine ⟨by linarith, fun hα => ?_⟩
  have hL1 : L ≤ 1 := by
    refine le_trans hL2 ?_
    rw [div_le_one (by linarith)]
    linarith
  have hsq : Real.sqrt (0.995 * L) ≤ 1 := by
    exact Real.sqrt_le_iff.2 ⟨by norm_num, by linarith⟩
  have hsq0 := Real.sqrt_nonneg (0.995 * L)
  have := g2 (by linarith)
  refine le_trans ?_ this
  have h3 : 0.9996 ≤ (1 - 2 * (Real.sqrt (0.995 * L) / 10000)) ^ 2 := by nlinarith
  have hl0 : 0 ≤ l := by linarith
  have h4 : 0.9997 * α ≤ l * (1 - 2 * (Real.sqrt (0.995 * L) / 10000)) ^ 2 := by nlinarith
  have h5 : l ^ 2 ≤ (1.0002 * (α / (1 - α))) ^ 2 := pow_le_pow_left₀ hl0 (by linarith) 2
  nlinarith [sq_nonneg (α / (1 - α))]

theorem cubeDist_unit (u : ℕ → ℝ) (i j : ℕ) : cubeDist u i j = 1000 * dist (unitPoint 3 u i) (unitPoint 3 u j) := by
  refine dist_unitPoint 3 u 1000 (by norm_num) _ _ i j (fun k hk => ?_) (fun k hk => ?_) <;>
  · have : k = 0 ∨ k = 1 ∨ k = 2 := by omega
    rcases this with rfl | rfl | rfl <;> simp [Spec.cubePoint, mul_comm]

/-- **C109, three dimensions.** -/
theorem C109_3dsphere_general {U : ℕ → Ω → ℝ} (hm : ∀ i, Measurable (U i)) (hi : iIndepFun U μ)
    (hl : ∀ i, μ.map (U i) = volume.restrict (Set.Icc 0 1)) (hu : ∀ i ω, 0 ≤ U i ω ∧ U i ω ≤ 1) (n : ℕ) (hn2 : 2 ≤ n) (mem : List (List ℝ))
    (hn : mem.length = n) (α : ℝ) (h0 : 0 ≤ α) (h1 : α < 1) (l r : ℝ)
    (hlam : l = 30 / 10 ^ 9 * (4 / 3 * Real.pi) * (n * (n - 1) / 2) * (-Real.log (1 - α))) (hr0 : 0 ≤ r)
    (hr : (1000 * r) ^ 3 = 30 * (-Real.log (1 - α))) :
    μ.real {ω | ∃ p, diehard3dsphere (fun i => U i ω) n mem = .ok p ∧ p ≤ α} ≤ l ∧
      (2 * r ≤ 1 → l * (1 - 2 * r) ^ 3 - l ^ 2 / 2 ≤ μ.real {ω | ∃ p, diehard3dsphere (fun i => U i ω) n mem = .ok p ∧ p ≤ α}) := by
  obtain ⟨L, hLdef⟩ : ∃ L, L = -Real.log (1 - α) := ⟨_, rfl⟩
  rw [← hLdef] at hlam hr
  have hvol : n * (n - 1) / 2 * volume.real (Metric.closedBall (0 : EuclideanSpace ℝ (Fin 3)) r) = l := by
    rw [vol3 r hr0, hlam]
    have : r ^ 3 = 30 * L / 10 ^ 9 := by rw [← hr]; ring
    rw [this]
    ring
  refine md_law hm hi hl 3 n r hr0 _ (fun ω => ?_) l hvol
  obtain ⟨d, e, g1, ⟨a, b, hab, hb, g2⟩, -⟩ := C71_3dsphere (fun i => U i ω) (fun i => hu i ω) n hn2 mem hn
  have hd0 : 0 ≤ d := by rw [g2, cubeDist_unit]; positivity
  have hiff : 1 - Real.exp (-d ^ 3 / 30) ≤ α ↔ d ≤ 1000 * r := by
    rw [neg_div, exp_le_iff h1, ← hLdef, div_le_iff₀ (by norm_num), mul_comm L, ← hr]
    exact pow_le_pow_iff_left₀ hd0 (by positivity) (by norm_num)
  rw [Set.mem_ofPred_eq]
  constructor
  · rintro ⟨p, hp, hpa⟩
    rw [e] at hp
    injection hp with hp
    rw [← hp, hiff, g2, cubeDist_unit] at hpa
    exact ⟨a, b, hab, hb, by linarith⟩
  · rintro ⟨i, j, hij, hj, g⟩
    refine ⟨_, e, hiff.2 ?_⟩
    have := g1 i j hij hj
    rw [cubeDist_unit] at this
    linarith

/-- **C109, the 4000 points in three dimensions.** -/
theorem C109_3dsphere {U : ℕ → Ω → ℝ} (hm : ∀ i, Measurable (U i)) (hi : iIndepFun U μ)
    (hl : ∀ i, μ.map (U i) = volume.restrict (Set.Icc 0 1)) (hu : ∀ i ω, 0 ≤ U i ω ∧ U i ω ≤ 1) (mem : List (List ℝ))
    (hn : mem.length = 4000) (α : ℝ) (h0 : 0 ≤ α) (h1 : α < 1) :
    μ.real {ω | ∃ p, diehard3dsphere (fun i => U i ω) 4000 mem = .ok p ∧ p ≤ α} ≤ 1.0051 * (α / (1 - α)) ∧
      (α ≤ 1 / 2 → 0.985 * α - 0.506 * (α / (1 - α)) ^ 2 ≤
        μ.real {ω | ∃ p, diehard3dsphere (fun i => U i ω) 4000 mem = .ok p ∧ p ≤ α}) := by
  obtain ⟨hL, hL2⟩ := log_bounds h0 h1
  have hL0 : 0 ≤ -Real.log (1 - α) := le_trans h0 hL
  obtain ⟨r, hr0, hr⟩ : ∃ r : ℝ, 0 ≤ r ∧ (1000 * r) ^ 3 = 30 * (-Real.log (1 - α)) := by
    refine ⟨(30 * (-Real.log (1 - α))) ^ ((3 : ℕ) : ℝ)⁻¹ / 1000, by positivity, ?_⟩
    rw [mul_div_cancel₀ _ (by norm_num), Real.rpow_inv_natCast_pow (by positivity) (by norm_num)]
  obtain ⟨g1, g2⟩ := C109_3dsphere_general hm hi hl hu 4000 (by omega) mem hn α h0 h1 _ r rfl hr0 hr
  obtain ⟨L, hLdef⟩ : ∃ L, L = -Real.log (1 - α) := ⟨_, rfl⟩
  rw [← hLdef] at g1 g2 hL hL2 hr hL0
  have hp1 := Real.pi_gt_d6
  have hp2 := Real.pi_lt_d6
  obtain ⟨l, hlam⟩ : ∃ l, l = 30 / 10 ^ 9 * (4 / 3 * Real.pi) * (((4000 : ℕ) : ℝ) * ((4000 : ℕ) - 1) / 2) * L := ⟨_, rfl⟩
  rw [← hlam] at g1 g2
  have hl1 : 1.005 * L ≤ l := by rw [hlam]; refine mul_le_mul_of_nonneg_right ?_ hL0; push_cast; linarith
  have hl2 : l ≤ 1.0051 * L := by rw [hlam]; refine mul_le_mul_of_nonneg_right ?_ hL0; push_cast; linarith
  refine ⟨by linarith, fun hα => ?_⟩
  have hL1 : L ≤ 1 := by
    refine le_trans hL2 ?_
    rw [div_le_one (by linarith)]
    linarith
  have hr3 : 1000 * r ≤ 3.11 := by
    refine le_of_pow_le_pow_left₀ (n := 3) (by norm_num) (by norm_num) ?_
    rw [hr]
    linarith
  have := g2 (by linarith)
  refine le_trans ?_ this
  have h2 : 0.9937 ≤ 1 - 2 * r := by linarith
  have h3 : 0.9937 ^ 3 ≤ (1 - 2 * r) ^ 3 := pow_le_pow_left₀ (by norm_num) h2 3
  have hl0 : 0 ≤ l := by linarith
  have h4 : 0.985 * α ≤ l * (1 - 2 * r) ^ 3 := by nlinarith
  have h5 : l ^ 2 ≤ (1.0051 * (α / (1 - α))) ^ 2 := pow_le_pow_left₀ hl0 (by linarith) 2
  nlinarith [sq_nonneg (α / (1 - α))]

/-! ### rgb_minimum_distance -/

theorem mdVolume_eq (dim : ℕ) (hd : 1 ≤ dim) (m : ℝ) (hm : 0 ≤ m) :
    mdVolume dim m = volume.real (Metric.closedBall (0 : EuclideanSpace ℝ (Fin dim)) m) := by
  haveI : Nontrivial (EuclideanSpace ℝ (Fin dim)) := Module.nontrivial_of_finrank_pos (R := ℝ) (by simp; omega)
  rw [mdVolume, measureReal_def]
  split
  · next h =>
    rw [InnerProductSpace.volume_closedBall_of_dim_even (k := dim / 2) (by simp; omega), ENNReal.toReal_mul, ENNReal.toReal_pow,
      ENNReal.toReal_ofReal hm, ENNReal.toReal_ofReal (by positivity), finrank_euclideanSpace, Fintype.card_fin]
    ring
  · next h =>
    have h2 : dim = 2 * ((dim - 1) / 2) + 1 := by omega
    rw [InnerProductSpace.volume_closedBall_of_dim_odd (k := (dim - 1) / 2) (by simp; omega), ENNReal.toReal_mul, ENNReal.toReal_pow,
      ENNReal.toReal_ofReal hm, ENNReal.toReal_ofReal (by positivity), finrank_euclideanSpace, Fintype.card_fin, mul_pow, pow_succ]
    ring

/-- `1 - e^{-x}(1 + cx²)` increases when `c < 1`. -/
theorem fischler_mono (c : ℝ) (hc0 : 0 ≤ c) (hc : c < 1) : StrictMono fun x : ℝ => 1 - Real.exp (-x) * (1 + c * x ^ 2) := by
  refine strictMono_of_deriv_pos fun x => ?_
  have h : HasDerivAt (fun x : ℝ => 1 - Real.exp (-x) * (1 + c * x ^ 2))
      (-(Real.exp (-x) * -1 * (1 + c * x ^ 2) + Real.exp (-x) * (c * (2 * x ^ 1)))) x := by
    have h1 : HasDerivAt (fun x : ℝ => Real.exp (-x)) (Real.exp (-x) * -1) x := (hasDerivAt_neg x).exp
    have h2 : HasDerivAt (fun x : ℝ => 1 + c * x ^ 2) (c * (2 * x ^ 1)) x := by
      have := ((hasDerivAt_pow 2 x).const_mul c).const_add 1
      simpa using this
    exact (h1.mul h2).const_sub 1
  rw [h.deriv]
  have : 0 < Real.exp (-x) * (1 + c * x ^ 2 - 2 * c * x) := by
    refine mul_pos (Real.exp_pos _) ?_
    nlinarith [mul_nonneg hc0 (sq_nonneg (x - 1))]
  linarith

namespace Spec

/-- Fischler's corrections for 2 to 5 dimensions; 0 in one dimension. -/
noncomputable def fischlerQ (d : ℕ) : ℝ := if d = 2 then 0.4135 else if d = 3 then 0.5312 else if d = 4 then 0.6202 else if d = 5 then 1.3789 else 0

/-- The expected number of the pairs of `n` points within distance `r`, the border of the cube neglected. -/
noncomputable def closePairs (n d : ℕ) (r : ℝ) : ℝ := n * (n - 1) / 2 * volume.real (Metric.closedBall (0 : EuclideanSpace ℝ (Fin d)) r)

/-- Fischler's formula: one minus the probability that no two of `n` points are within distance `r`. -/
noncomputable def fischler (n d : ℕ) (r : ℝ) : ℝ :=
  1 - Real.exp (-closePairs n d r) * (1 + (2 + fischlerQ d) / 6 * n ^ 3 * volume.real (Metric.closedBall (0 : EuclideanSpace ℝ (Fin d)) r) ^ 2)

/-- The coefficient of the square of `closePairs` in the correction. -/
noncomputable def fischlerC (n d : ℕ) : ℝ := 2 / 3 * (2 + fischlerQ d) * n / (n - 1) ^ 2

end Spec

theorem fischlerQ_bounds (d : ℕ) : 0 ≤ fischlerQ d ∧ fischlerQ d ≤ 1.3789 := by
  rw [fischlerQ]
  split_ifs <;> norm_num

theorem fischler_eq (n d : ℕ) (hn : 2 ≤ n) (r : ℝ) : fischler n d r =
    1 - Real.exp (-closePairs n d r) * (1 + fischlerC n d * closePairs n d r ^ 2) := by
  rw [fischler, fischlerC, closePairs]
  have : (2 : ℝ) ≤ n := by exact_mod_cast hn
  have h1 : (n - 1 : ℝ) ≠ 0 := by linarith
  congr 2
  field_simp
  ring

theorem fischlerC_bounds (n d : ℕ) (hn : 5 ≤ n) : 0 ≤ fischlerC n d ∧ fischlerC n d < 1 := by
  obtain ⟨h1, h2⟩ := fischlerQ_bounds d
  have hn' : (5 : ℝ) ≤ n := by exact_mod_cast hn
  have h3 : (0 : ℝ) < (n - 1) ^ 2 := by nlinarith
  rw [fischlerC]
  refine ⟨by positivity, ?_⟩
  rw [div_lt_one h3]
  nlinarith

theorem closePairs_nonneg (n d : ℕ) (r : ℝ) (hn : 1 ≤ n) : 0 ≤ closePairs n d r := by
  have : (1 : ℝ) ≤ n := by exact_mod_cast hn
  have : (0 : ℝ) ≤ n - 1 := by linarith
  rw [closePairs]
  positivity

theorem closePairs_lt (n d : ℕ) (hn : 2 ≤ n) (hd : 1 ≤ d) {r s : ℝ} (hr : 0 ≤ r) (h : r < s) : closePairs n d r < closePairs n d s := by
  have : (2 : ℝ) ≤ n := by exact_mod_cast hn
  have h1 : (0 : ℝ) < n * (n - 1) / 2 := by nlinarith
  rw [closePairs, closePairs]
  refine mul_lt_mul_of_pos_left ?_ h1
  rw [← mdVolume_eq d hd r hr, ← mdVolume_eq d hd s (by linarith), mdVolume, mdVolume]
  have h2 : r ^ d < s ^ d := pow_lt_pow_left₀ h hr (by omega)
  have hpi := Real.pi_pos
  split
  · refine div_lt_div_of_pos_right ?_ (by positivity)
    exact mul_lt_mul_of_pos_left h2 (by positivity)
  · refine div_lt_div_of_pos_right ?_ (by exact_mod_cast Nat.doubleFactorial_pos d)
    exact mul_lt_mul_of_pos_left h2 (by positivity)

theorem fischler_le_iff (n d : ℕ) (hn : 5 ≤ n) (hd : 1 ≤ d) {r s : ℝ} (hr : 0 ≤ r) (hs : 0 ≤ s) : fischler n d r ≤ fischler n d s ↔ r ≤ s := by
  obtain ⟨c0, c1⟩ := fischlerC_bounds n d hn
  rw [fischler_eq n d (by omega), fischler_eq n d (by omega)]
  have hmono := fischler_mono _ c0 c1
  rw [show (1 - Real.exp (-closePairs n d r) * (1 + fischlerC n d * closePairs n d r ^ 2) ≤
    1 - Real.exp (-closePairs n d s) * (1 + fischlerC n d * closePairs n d s ^ 2)) ↔ closePairs n d r ≤ closePairs n d s from hmono.le_iff_le]
  constructor
  · intro h
    by_contra hlt
    exact absurd h (not_le.2 (closePairs_lt n d (by omega) hd hs (not_le.1 hlt)))
  · intro h
    rcases h.lt_or_eq with h | rfl
    · exact (closePairs_lt n d (by omega) hd hr h).le
    · exact le_rfl

theorem fischler_bounds (n d : ℕ) (hn : 5 ≤ n) (r : ℝ) :
    fischler n d r ≤ closePairs n d r ∧ closePairs n d r - (1 / 2 + fischlerC n d) * closePairs n d r ^ 2 ≤ fischler n d r ∧
      0 ≤ fischler n d r ∧ fischler n d r < 1 := by
  obtain ⟨c0, c1⟩ := fischlerC_bounds n d hn
  have hmono := fischler_mono _ c0 c1
  have hx := closePairs_nonneg n d r (by omega)
  rw [fischler_eq n d (by omega)]
  obtain ⟨x, hxd⟩ : ∃ x, x = closePairs n d r := ⟨_, rfl⟩
  obtain ⟨c, hcd⟩ : ∃ c, c = fischlerC n d := ⟨_, rfl⟩
  rw [← hxd] at hx ⊢
  rw [← hcd] at c0 c1 hmono ⊢
  have hpos := Real.exp_pos (-x)
  have hq : (1 : ℝ) ≤ 1 + c * x ^ 2 := by nlinarith [mul_nonneg c0 (sq_nonneg x)]
  have hx1 := Real.add_one_le_exp (-x)
  have hx2 : Real.exp (-x) ≤ 1 - x + x ^ 2 / 2 := by
    rw [Real.exp_neg, inv_eq_one_div, div_le_iff₀ (Real.exp_pos _)]
    have h1 := Real.quadratic_le_exp_of_nonneg hx
    have h2 : 0 ≤ 1 - x + x ^ 2 / 2 := by nlinarith [sq_nonneg (x - 1)]
    refine le_trans ?_ (mul_le_mul_of_nonneg_left h1 h2)
    nlinarith [sq_nonneg (x ^ 2)]
  refine ⟨by nlinarith, ?_, ?_, by nlinarith⟩
  · have h3 : Real.exp (-x) ≤ 1 := Real.exp_le_one_iff.2 (by linarith)
    have h4 : Real.exp (-x) * (c * x ^ 2) ≤ 1 * (c * x ^ 2) := mul_le_mul_of_nonneg_right h3 (mul_nonneg c0 (sq_nonneg x))
    nlinarith
  · have := hmono.monotone hx
    simp only [neg_zero, Real.exp_zero] at this
    linarith

/-- The p-value in terms of the smallest distance. -/
theorem rgbmd_run (u : ℕ → ℝ) (sort : List (List ℝ) → List (List ℝ)) (hsort : Spec.Sorts sort) (d : ℕ) (hd1 : 1 ≤ d) (hd5 : d ≤ 5)
    (mem : List (List ℝ)) (hmem : ∀ p ∈ mem, p.length = 5) :
    ∃ m, rgbMinimumDistance u sort d mem = .ok (fischler mem.length d m) ∧ 0 ≤ m ∧ m ≤ 1 ∧
      (∀ i j, i < j → j < mem.length → m ≤ dist (unitPoint d u i) (unitPoint d u j)) ∧
      (m = 1 ∨ ∃ i j, i < j ∧ j < mem.length ∧ m = dist (unitPoint d u i) (unitPoint d u j)) := by
  obtain ⟨pts, m, g1, g2, g3, g4, g5⟩ := md_found u 1 zero_le_one sort hsort d hd1 mem (fun p hp => by rw [hmem p hp]; omega) 1
  simp only [one_mul] at g4 g5
  have hm0 : 0 ≤ m := by
    rcases g5 with g | ⟨i, j, -, -, g⟩
    · rw [g]; norm_num
    · rw [g]; exact dist_nonneg
  have hq : rd rgbMdQ d = .ok (fischlerQ d) := by
    have : d = 1 ∨ d = 2 ∨ d = 3 ∨ d = 4 ∨ d = 5 := by omega
    rcases this with rfl | rfl | rfl | rfl | rfl <;> simp [rgbMdQ, rd, fischlerQ]
  refine ⟨m, ?_, hm0, g3, g4, g5⟩
  rw [rgbMinimumDistance, g1]
  simp only [Res.bind_ok]
  rw [g2]
  simp only [Res.bind_ok]
  rw [hq]
  simp only [Res.bind_ok]
  rw [mdVolume_eq d hd1 m hm0, fischler, closePairs]
  congr 3
  · congr 1; ring
  · ring

/-- **C110.**  Of `n ≥ 5` points in 1 to 5 dimensions, rgb_minimum_distance finds the smallest distance `m` (or 1 if that is less) and
turns it into Fischler's formula, with the volume of the ball of radius `m` in it.  The p-value lies in `[0, 1)` and increases with
`m`. -/
theorem C110_pvalue (u : ℕ → ℝ) (sort : List (List ℝ) → List (List ℝ)) (hsort : Spec.Sorts sort) (d : ℕ) (hd1 : 1 ≤ d) (hd5 : d ≤ 5)
    (mem : List (List ℝ)) (hmem : ∀ p ∈ mem, p.length = 5) (n : ℕ) (hn : mem.length = n) (hn5 : 5 ≤ n) :
    ∃ m, rgbMinimumDistance u sort d mem = .ok (fischler n d m) ∧ 0 ≤ fischler n d m ∧ fischler n d m < 1 ∧ 0 ≤ m ∧ m ≤ 1 ∧
      (∀ i j, i < j → j < n → m ≤ dist (unitPoint d u i) (unitPoint d u j)) ∧
      (m = 1 ∨ ∃ i j, i < j ∧ j < n ∧ m = dist (unitPoint d u i) (unitPoint d u j)) ∧
      ∀ r, 0 ≤ r → (fischler n d m ≤ fischler n d r ↔ m ≤ r) := by
  obtain ⟨m, g1, g2, g3, g4, g5⟩ := rgbmd_run u sort hsort d hd1 hd5 mem hmem
  rw [hn] at g1 g4 g5
  obtain ⟨-, -, h1, h2⟩ := fischler_bounds n d hn5 m
  exact ⟨m, g1, h1, h2, g2, g3, g4, g5, fun r hr => fischler_le_iff n d hn5 hd1 g2 hr⟩

/-- **C110, the law.**  On independent uniform deviates the probability that the p-value is at most `α` is `α` up to the square of the
expected number of close pairs and the effect of the border, for every `α` up to that of distance 1/2. -/
theorem C110_law {U : ℕ → Ω → ℝ} (hm : ∀ i, Measurable (U i)) (hi : iIndepFun U μ)
    (hl : ∀ i, μ.map (U i) = volume.restrict (Set.Icc 0 1)) (sort : List (List ℝ) → List (List ℝ)) (hsort : Spec.Sorts sort)
    (d : ℕ) (hd1 : 1 ≤ d) (hd5 : d ≤ 5) (mem : List (List ℝ)) (hmem : ∀ p ∈ mem, p.length = 5) (n : ℕ) (hn : mem.length = n) (hn5 : 5 ≤ n)
    (r : ℝ) (hr : 0 ≤ r) (hr2 : 2 * r ≤ 1) :
    |μ.real {ω | ∃ p, rgbMinimumDistance (fun i => U i ω) sort d mem = .ok p ∧ p ≤ fischler n d r} - fischler n d r| ≤
      (1 / 2 + fischlerC n d) * closePairs n d r ^ 2 + 2 * d * r * closePairs n d r := by
  obtain ⟨h1, h2⟩ := md_law hm hi hl d n r hr {ω | ∃ p, rgbMinimumDistance (fun i => U i ω) sort d mem = .ok p ∧ p ≤ fischler n d r}
    (fun ω => by
      obtain ⟨m, e, -, -, g0, g1, g2, g3, g4⟩ := C110_pvalue (fun i => U i ω) sort hsort d hd1 hd5 mem hmem n hn hn5
      rw [Set.mem_ofPred_eq]
      constructor
      · rintro ⟨p, hp, hpa⟩
        rw [e] at hp
        injection hp with hp
        rw [← hp, g4 r hr] at hpa
        rcases g3 with g | ⟨i, j, hij, hj, g⟩
        · rw [g] at hpa; linarith
        · exact ⟨i, j, hij, hj, by linarith⟩
      · rintro ⟨i, j, hij, hj, g⟩
        exact ⟨_, e, (g4 r hr).2 (le_trans (g2 i j hij hj) g)⟩) (closePairs n d r) rfl
  have h2 := h2 hr2
  obtain ⟨h3, h4, -, -⟩ := fischler_bounds n d hn5 r
  have hx := closePairs_nonneg n d r (by omega)
  obtain ⟨c0, -⟩ := fischlerC_bounds n d hn5
  have hb : 1 - 2 * (d : ℝ) * r ≤ (1 - 2 * r) ^ d := by
    have := one_add_mul_le_pow (show (-2 : ℝ) ≤ -(2 * r) by linarith) d
    rw [← sub_eq_add_neg] at this
    linarith
  have hb2 := mul_le_mul_of_nonneg_left hb hx
  have hc := mul_nonneg c0 (sq_nonneg (closePairs n d r))
  have hd0 : 0 ≤ 2 * (d : ℝ) * r * closePairs n d r := by positivity
  rw [abs_le]
  constructor <;> nlinarith

theorem mdInner_dim0 (points : List (List ℝ)) (hp : ∀ p ∈ points, 1 ≤ p.length) (i : Nat) (hi : i < points.length) :
    ∀ (todo j : Nat) (m : ℝ), j + todo ≤ points.length → ∃ m', mdInner points 0 i todo j m = .ok m' := by
  intro todo
  induction todo with
  | zero => exact fun j m _ => ⟨m, rfl⟩
  | succ n ih =>
    intro j m h
    have hj : j < points.length := by omega
    rw [mdInner, rd_ok hj, rd_ok hi]
    simp only [Res.bind_ok]
    rw [rd_ok (show 0 < points[j].length from hp _ (List.getElem_mem hj)), rd_ok (show 0 < points[i].length from hp _ (List.getElem_mem hi))]
    simp only [Res.bind_ok]
    split
    · exact ⟨m, rfl⟩
    · rw [distance, distLoop]
      simp only [Res.bind_ok]
      exact ih (j + 1) _ (by omega)

theorem mdOuter_dim0 (points : List (List ℝ)) (hp : ∀ p ∈ points, 1 ≤ p.length) :
    ∀ (todo i : Nat) (m : ℝ), i + todo ≤ points.length → ∃ m', mdOuter points 0 points.length todo i m = .ok m' := by
  intro todo
  induction todo with
  | zero => exact fun j m _ => ⟨m, rfl⟩
  | succ n ih =>
    intro i m h
    obtain ⟨m', e⟩ := mdInner_dim0 points hp i (by omega) (points.length - (i + 1)) (i + 1) m (by omega)
    rw [mdOuter, e]
    simp only [Res.bind_ok]
    exact ih (i + 1) m' (by omega)

/-- **C110, no dimension given.**  Run by itself without `-n`, `ntuple` is 0: the p-value is then the same number for every generator
and every state of memory. -/
theorem C110_dim0 (u : ℕ → ℝ) (sort : List (List ℝ) → List (List ℝ)) (hsort : ∀ l, (sort l).Perm l) (mem : List (List ℝ))
    (hmem : ∀ p ∈ mem, p.length = 5) (n : ℕ) (hn : mem.length = n) :
    rgbMinimumDistance u sort 0 mem = .ok (1 - Real.exp (-(n * (n - 1) / 2)) * (1 + n ^ 3 / 3)) := by
  have hpts : ∀ (todo t x : Nat) (pts : List (List ℝ)), t + todo ≤ pts.length → mdPoints u 1 0 todo t x pts = .ok pts := by
    intro todo
    induction todo with
    | zero => exact fun _ _ _ _ => rfl
    | succ n ih =>
      intro t x pts h
      have ht : t < pts.length := by omega
      rw [mdPoints, rd_ok ht]
      simp only [Res.bind_ok, mdCoords]
      rw [wr_in _ _ _ ht, List.set_getElem_self]
      exact ih (t + 1) _ pts (by omega)
  obtain ⟨m, e⟩ := mdOuter_dim0 (sort mem) (fun p hp => by rw [hmem p ((hsort mem).mem_iff.1 hp)]; omega) (sort mem).length 0 1 (by omega)
  rw [rgbMinimumDistance]
  simp only []
  rw [hpts mem.length 0 0 mem (by omega)]
  simp only [Res.bind_ok]
  rw [minDist, e]
  simp only [Res.bind_ok]
  rw [rgbMdQ, rd_ok (by simp), hn]
  simp only [Res.bind_ok, mdVolume]
  norm_num
  congr 2 <;> ring_nf

/-- **C110, two points.**  With two points in the plane at distance 1 or more the p-value is negative. -/
theorem C110_negative (u : ℕ → ℝ) (sort : List (List ℝ) → List (List ℝ)) (hsort : Spec.Sorts sort) (mem : List (List ℝ))
    (hmem : ∀ p ∈ mem, p.length = 5) (hn : mem.length = 2) (hu : 1 ≤ (u 0 - u 2) ^ 2 + (u 1 - u 3) ^ 2) :
    ∃ p, rgbMinimumDistance u sort 2 mem = .ok p ∧ p < 0 := by
  obtain ⟨m, e, g0, g1, g2, g3⟩ := rgbmd_run u sort hsort 2 (by omega) (by omega) mem hmem
  have hd : 1 ≤ dist (unitPoint 2 u 0) (unitPoint 2 u 1) := by
    rw [EuclideanSpace.dist_eq, Real.one_le_sqrt]
    simp only [Fin.sum_univ_two, unitPoint, Real.dist_eq, sq_abs]
    exact hu
  have hm1 : m = 1 := by
    rcases g3 with g | ⟨i, j, hij, hj, g⟩
    · exact g
    · have : i = 0 ∧ j = 1 := by omega
      rw [this.1, this.2] at g
      linarith
  refine ⟨_, e, ?_⟩
  rw [hn, hm1, fischler, closePairs, vol2 1 zero_le_one]
  norm_num
  have h3 := Real.pi_gt_three
  have h4 := Real.pi_lt_d2
  have hpos := Real.exp_pos (-Real.pi)
  have he : Real.exp Real.pi < 27.5 := by
    have h5 : Real.exp Real.pi ≤ Real.exp (1 + 1 + 1 + 0.15) := Real.exp_le_exp.2 (by linarith)
    have h6 : Real.exp (0.15 : ℝ) ≤ 1 / (1 - 0.15) := by
      have := Real.add_one_le_exp (-0.15 : ℝ)
      rw [Real.exp_neg] at this
      rw [le_div_iff₀ (by norm_num)]
      have h7 := Real.exp_pos (0.15 : ℝ)
      have : (-0.15 + 1) * Real.exp (0.15 : ℝ) ≤ (Real.exp (0.15 : ℝ))⁻¹ * Real.exp (0.15 : ℝ) := mul_le_mul_of_nonneg_right this h7.le
      rw [inv_mul_cancel₀ h7.ne'] at this
      linarith
    have h8 := Real.exp_one_lt_d9
    have h9 := Real.exp_pos (1 : ℝ)
    rw [Real.exp_add, Real.exp_add, Real.exp_add] at h5
    have h10 : Real.exp 1 * Real.exp 1 ≤ 7.39 := by nlinarith
    have h11 : Real.exp 1 * Real.exp 1 * Real.exp 1 ≤ 20.1 := by nlinarith
    have h12 : Real.exp 1 * Real.exp 1 * Real.exp 1 * Real.exp (0.15 : ℝ) ≤ 20.1 * (1 / (1 - 0.15)) :=
      mul_le_mul h11 h6 (Real.exp_pos _).le (by norm_num)
    have : (20.1 : ℝ) * (1 / (1 - 0.15)) < 27.5 := by norm_num
    linarith
  have hinv : Real.exp (-Real.pi) * Real.exp Real.pi = 1 := by rw [← Real.exp_add]; simp
  have : 1 < Real.exp (-Real.pi) * 27.5 := by nlinarith
  have hq : fischlerQ 2 = 0.4135 := by simp [fischlerQ]
  rw [hq]
  have h13 : 27.5 ≤ 1 + (2 + 0.4135) / 6 * 8 * Real.pi ^ 2 := by nlinarith
  nlinarith

/-! ### Examples -/

/-- A function that sorts as `gsl_heapsort` does. -/
noncomputable def exSort (l : List (List ℝ)) : List (List ℝ) := by
  classical exact l.mergeSort fun a b => decide (a.getD 0 0 ≤ b.getD 0 0)

theorem exSort_sorts : Spec.Sorts exSort := fun l => by
  classical
  refine ⟨List.mergeSort_perm _ _, ?_⟩
  have := List.pairwise_mergeSort (le := fun a b : List ℝ => decide (a.getD 0 0 ≤ b.getD 0 0))
    (fun a b c h1 h2 => decide_eq_true (le_trans (of_decide_eq_true h1) (of_decide_eq_true h2)))
    (fun a b => by
      rcases le_total (a.getD 0 0) (b.getD 0 0) with h | h
      · simp only [h, decide_true, Bool.true_or]
      · simp only [h, decide_true, Bool.or_true]) l
  exact this.imp fun h => of_decide_eq_true h

/-- At the level of one percent the plane test errs by at most two percent of that. -/
example : let P := unifSeq.real {ω | ∃ p, diehard2dsphere (fun i => deviate i ω) exSort (List.replicate 8000 [0, 0, 0, 0, 0]) = .ok p ∧ p ≤ 0.01}
    0.0099 ≤ P ∧ P ≤ 0.0102 := by
  have h := C109_2dsphere deviate_meas deviate_indep deviate_law exSort exSort_sorts (List.replicate 8000 [0, 0, 0, 0, 0])
    (fun p hp => by rw [List.eq_of_mem_replicate hp]; rfl) List.length_replicate 0.01 (by norm_num) (by norm_num)
  exact ⟨le_trans (by norm_num) (h.2 (by norm_num)), le_trans h.1 (by norm_num)⟩

/-- And the spatial one by at most three percent. -/
example : let P := unifSeq.real {ω | ∃ p, diehard3dsphere (fun i => deviate i ω) 4000 (List.replicate 4000 []) = .ok p ∧ p ≤ 0.01}
    0.0097 ≤ P ∧ P ≤ 0.0102 := by
  have h := C109_3dsphere deviate_meas deviate_indep deviate_law deviate_mem (List.replicate 4000 []) List.length_replicate 0.01
    (by norm_num) (by norm_num)
  exact ⟨le_trans (by norm_num) (h.2 (by norm_num)), le_trans h.1 (by norm_num)⟩

/-- 10000 points in the plane: up to a critical distance of 2·10⁻⁵, where the p-value is about 0.06, the error is at most 0.003. -/
example : let P := unifSeq.real {ω | ∃ p, rgbMinimumDistance (fun i => deviate i ω) exSort 2 (List.replicate 10000 [0, 0, 0, 0, 0]) = .ok p ∧
      p ≤ fischler 10000 2 0.00002}
    |P - fischler 10000 2 0.00002| ≤ 0.003 := by
  have h := C110_law deviate_meas deviate_indep deviate_law exSort exSort_sorts 2 (by omega) (by omega) (List.replicate 10000 [0, 0, 0, 0, 0])
    (fun p hp => by rw [List.eq_of_mem_replicate hp]; rfl) 10000 List.length_replicate (by omega) 0.00002 (by norm_num) (by norm_num)
  refine le_trans h ?_
  have h2 := Real.pi_lt_d2
  have h3 := Real.pi_gt_three
  have hc : closePairs 10000 2 0.00002 ≤ 0.064 := by
    rw [closePairs, vol2 _ (by norm_num)]
    push_cast
    nlinarith
  have hc0 := closePairs_nonneg 10000 2 0.00002 (by omega)
  have hf : fischlerC 10000 2 ≤ 0.001 := by
    rw [fischlerC, show fischlerQ 2 = 0.4135 by simp [fischlerQ]]
    norm_num
  have hf0 := (fischlerC_bounds 10000 2 (by omega)).1
  have : closePairs 10000 2 0.00002 ^ 2 ≤ 0.0041 := by nlinarith
  push_cast
  nlinarith [sq_nonneg (closePairs 10000 2 0.00002)]

/-- Two points near opposite corners of the square. -/
example : ∃ p, rgbMinimumDistance (fun i => if i < 2 then 0.1 else 0.9) exSort 2 [[0, 0, 0, 0, 0], [0, 0, 0, 0, 0]] = .ok p ∧ p < 0 :=
  C110_negative _ _ exSort_sorts _ (by simp) rfl (by norm_num)

end Dh
