import Verif.Props.SphereLaw
import Verif.Props.RunsPower
/-
C151: what the minimum distance tests always find.
-/
namespace Dh
open Spec

namespace Spec

/-- Two of the first `n` points in `d` dimensions are within distance `r`. -/
def Close (d n : ℕ) (r : ℝ) (u : ℕ → ℝ) : Prop := ∃ i j, i < j ∧ j < n ∧ dist (unitPoint d u i) (unitPoint d u j) ≤ r

/-- No two of the first `n` points in `d` dimensions are nearer than `r`. -/
def Spread (d n : ℕ) (r : ℝ) (u : ℕ → ℝ) : Prop := ∀ i j, i < j → j < n → r ≤ dist (unitPoint d u i) (unitPoint d u j)

end Spec

theorem runs_exist {α : Type} (f : α → Res ℝ) (P : ℝ → Prop) : ∀ us : List α, (∀ u ∈ us, ∃ p, f u = .ok p ∧ P p) →
    ∃ ps : List ℝ, us.map f = ps.map .ok ∧ ∀ p ∈ ps, P p := by
  intro us
  induction us with
  | nil => exact fun _ => ⟨[], rfl, fun _ h => absurd h (List.not_mem_nil)⟩
  | cons u us ih =>
    intro h
    obtain ⟨p, h1, h2⟩ := h u List.mem_cons_self
    obtain ⟨ps, h3, h4⟩ := ih fun v hv => h v (List.mem_cons_of_mem _ hv)
    refine ⟨p :: ps, by rw [List.map_cons, List.map_cons, h1, h3], fun q hq => ?_⟩
    rcases List.mem_cons.1 hq with rfl | hq
    · exact h2
    · exact h4 q hq

theorem exp_small {x : ℝ} (h : 7.83 ≤ x) : Real.exp (-x) ≤ 0.0004 := by
  have h1 : Real.exp (-x) ≤ Real.exp (-7.83) := Real.exp_le_exp.2 (by linarith)
  refine h1.trans ?_
  rw [Real.exp_neg, inv_eq_one_div, div_le_iff₀ (Real.exp_pos _)]
  have h2 : Real.exp 7.83 = Real.exp 1 ^ 7 * Real.exp 0.83 := by
    rw [← Real.exp_nat_mul, ← Real.exp_add]
    norm_num
  have h3 : (2.718 : ℝ) ^ 7 ≤ Real.exp 1 ^ 7 := pow_le_pow_left₀ (by norm_num) (by linarith [Real.exp_one_gt_d9]) 7
  have h4 : (2.291 : ℝ) ≤ Real.exp 0.83 := by
    have := Real.sum_le_exp_of_nonneg (show (0 : ℝ) ≤ 0.83 by norm_num) 6
    refine le_trans ?_ this
    norm_num [Finset.sum_range_succ, Nat.factorial]
  rw [h2]
  have h5 : (2.718 : ℝ) ^ 7 * 2.291 ≤ Real.exp 1 ^ 7 * Real.exp 0.83 := mul_le_mul h3 h4 (by norm_num) (by positivity)
  refine le_trans ?_ (mul_le_mul_of_nonneg_left h5 (by norm_num))
  norm_num

theorem one_sub_exp_le (x : ℝ) : 1 - Real.exp (-x) ≤ x := by linarith [Real.add_one_le_exp (-x)]

/-- The p-value of the plane test. -/
theorem sphere2_run (u : ℕ → ℝ) (sort : List (List ℝ) → List (List ℝ)) (hsort : Spec.Sorts sort) (mem : List (List ℝ)) (hmem : ∀ p ∈ mem, p.length = 5) :
    ∃ m, diehard2dsphere u sort mem = .ok (1 - Real.exp (-(m * m / 0.995))) ∧ 0 ≤ m ∧ m ≤ 10000 ∧
      (∀ i j, i < j → j < mem.length → m ≤ 10000 * dist (unitPoint 2 u i) (unitPoint 2 u j)) ∧
      (m = 10000 ∨ ∃ i j, i < j ∧ j < mem.length ∧ m = 10000 * dist (unitPoint 2 u i) (unitPoint 2 u j)) := by
  obtain ⟨pts, m, g1, g2, g3, g4, g5⟩ := md_found u 10000 (by norm_num) sort hsort 2 (by omega) mem (fun p hp => by rw [hmem p hp]; omega) 10000
  refine ⟨m, ?_, ?_, g3, g4, g5⟩
  · rw [diehard2dsphere, g1]
    simp only [Res.bind_ok]
    rw [g2]
    simp only [Res.bind_ok]
    rw [neg_mul, neg_div]
  · rcases g5 with g | ⟨i, j, -, -, g⟩
    · rw [g]; norm_num
    · rw [g]; positivity

/-- **C151, two dimensions.**  `diehard_2dsphere` fails if in every run two points are within 0.00000199 of each other, on the scale of
the unit square, and it fails if in every run no two are nearer than 0.00028. -/
theorem C151_2d (sort : List (List ℝ) → List (List ℝ)) (hsort : Spec.Sorts sort) (mem : List (List ℝ)) (hmem : ∀ p ∈ mem, p.length = 5)
    (us : List (ℕ → ℝ)) :
    ((∀ u ∈ us, Close 2 mem.length 0.00000199 u) → ∃ ps : List ℝ, us.map (fun u => diehard2dsphere u sort mem) = ps.map .ok ∧ FailsLow ps) ∧
      ((∀ u ∈ us, Spread 2 mem.length 0.00028 u) → ∃ ps : List ℝ, us.map (fun u => diehard2dsphere u sort mem) = ps.map .ok ∧ FailsHigh ps) := by
  constructor
  · intro h
    obtain ⟨ps, h1, h2⟩ := runs_exist (fun u => diehard2dsphere u sort mem) (fun p => 0 ≤ p ∧ p ≤ 0.0004) us fun u hu => by
      obtain ⟨m, e, m0, -, h3, -⟩ := sphere2_run u sort hsort mem hmem
      obtain ⟨i, j, hij, hj, hd⟩ := h u hu
      have hm : m ≤ 0.0199 := by linarith [h3 i j hij hj]
      have hmm : m * m / 0.995 ≤ 0.0004 := by
        rw [div_le_iff₀ (by norm_num)]
        nlinarith
      refine ⟨_, e, ?_, (one_sub_exp_le _).trans hmm⟩
      have : Real.exp (-(m * m / 0.995)) ≤ 1 := Real.exp_le_one_iff.2 (by rw [neg_nonpos]; positivity)
      linarith
    exact ⟨ps, h1, C137_low ps h2⟩
  · intro h
    obtain ⟨ps, h1, h2⟩ := runs_exist (fun u => diehard2dsphere u sort mem) (fun p => 0.9996 ≤ p ∧ p ≤ 1) us fun u hu => by
      obtain ⟨m, e, m0, -, -, h3⟩ := sphere2_run u sort hsort mem hmem
      have hm : 2.8 ≤ m := by
        rcases h3 with h3 | ⟨i, j, hij, hj, h3⟩
        · rw [h3]; norm_num
        · rw [h3]
          linarith [h u hu i j hij hj]
      refine ⟨_, e, ?_, by linarith [Real.exp_pos (-(m * m / 0.995))]⟩
      have : 7.83 ≤ m * m / 0.995 := by
        rw [le_div_iff₀ (by norm_num)]
        nlinarith
      linarith [exp_small this]
    exact ⟨ps, h1, C139_high ps h2⟩

/-- **C151, three dimensions.**  `diehard_3dsphere` fails if in every run two points are within 0.000228 of each other, on the scale of
the unit cube, and it fails if in every run no two are nearer than 0.0062. -/
theorem C151_3d (n : ℕ) (hn : 2 ≤ n) (mem : List (List ℝ)) (hmem : mem.length = n) (us : List (ℕ → ℝ)) (hus : ∀ u ∈ us, ∀ i, 0 ≤ u i ∧ u i ≤ 1) :
    ((∀ u ∈ us, Close 3 n 0.000228 u) → ∃ ps : List ℝ, us.map (fun u => diehard3dsphere u n mem) = ps.map .ok ∧ FailsLow ps) ∧
      ((∀ u ∈ us, Spread 3 n 0.0062 u) → ∃ ps : List ℝ, us.map (fun u => diehard3dsphere u n mem) = ps.map .ok ∧ FailsHigh ps) := by
  constructor
  · intro h
    obtain ⟨ps, h1, h2⟩ := runs_exist (fun u => diehard3dsphere u n mem) (fun p => 0 ≤ p ∧ p ≤ 0.0004) us fun u hu => by
      obtain ⟨m, e, h3, ⟨a, b, -, -, hab⟩, hp, -⟩ := C71_3dsphere u (hus u hu) n hn mem hmem
      have m0 : 0 ≤ m := by rw [hab, cubeDist_unit]; positivity
      obtain ⟨i, j, hij, hj, hd⟩ := h u hu
      have hm : m ≤ 0.228 := by
        have := h3 i j hij hj
        rw [cubeDist_unit] at this
        linarith
      refine ⟨_, e, hp, ?_⟩
      have h4 : m ^ 3 ≤ 0.228 ^ 3 := pow_le_pow_left₀ m0 hm 3
      rw [neg_div]
      refine (one_sub_exp_le _).trans ?_
      linarith
    exact ⟨ps, h1, C137_low ps h2⟩
  · intro h
    obtain ⟨ps, h1, h2⟩ := runs_exist (fun u => diehard3dsphere u n mem) (fun p => 0.9996 ≤ p ∧ p ≤ 1) us fun u hu => by
      obtain ⟨m, e, -, ⟨a, b, hab, hb, hm⟩, -, hp⟩ := C71_3dsphere u (hus u hu) n hn mem hmem
      have hm' : 6.2 ≤ m := by
        rw [hm, cubeDist_unit]
        linarith [h u hu a b hab hb]
      refine ⟨_, e, ?_, hp.le⟩
      have h4 : (6.2 : ℝ) ^ 3 ≤ m ^ 3 := pow_le_pow_left₀ (by norm_num) hm' 3
      rw [neg_div]
      linarith [exp_small (show 7.83 ≤ m ^ 3 / 30 by linarith)]
    exact ⟨ps, h1, C139_high ps h2⟩

/-- **C151, one to five dimensions.**  `rgb_minimum_distance` fails if in every run two points are within a distance at which at most
0.0004 close pairs are expected, and it fails if in every run no two are nearer than a distance at which at least 14 are. -/
theorem C151_rgb (sort : List (List ℝ) → List (List ℝ)) (hsort : Spec.Sorts sort) (d : ℕ) (hd1 : 1 ≤ d) (hd5 : d ≤ 5) (mem : List (List ℝ))
    (hmem : ∀ p ∈ mem, p.length = 5) (n : ℕ) (hn : mem.length = n) (hn5 : 5 ≤ n) (us : List (ℕ → ℝ)) (r : ℝ) (hr : 0 ≤ r) :
    (closePairs n d r ≤ 0.0004 → (∀ u ∈ us, Close d n r u) →
      ∃ ps : List ℝ, us.map (fun u => rgbMinimumDistance u sort d mem) = ps.map .ok ∧ FailsLow ps) ∧
    (14 ≤ closePairs n d r → r ≤ 1 → (∀ u ∈ us, Spread d n r u) →
      ∃ ps : List ℝ, us.map (fun u => rgbMinimumDistance u sort d mem) = ps.map .ok ∧ FailsHigh ps) := by
  constructor
  · intro hc h
    obtain ⟨ps, h1, h2⟩ := runs_exist (fun u => rgbMinimumDistance u sort d mem) (fun p => 0 ≤ p ∧ p ≤ 0.0004) us fun u hu => by
      obtain ⟨m, e, p0, -, m0, -, h3, -, h4⟩ := C110_pvalue u sort hsort d hd1 hd5 mem hmem n hn hn5
      obtain ⟨i, j, hij, hj, hd⟩ := h u hu
      refine ⟨_, e, p0, ?_⟩
      have := (h4 r hr).2 ((h3 i j hij hj).trans hd)
      linarith [(fischler_bounds n d hn5 r).1]
    exact ⟨ps, h1, C137_low ps h2⟩
  · intro hc hr1 h
    obtain ⟨ps, h1, h2⟩ := runs_exist (fun u => rgbMinimumDistance u sort d mem) (fun p => 0.9996 ≤ p ∧ p ≤ 1) us fun u hu => by
      obtain ⟨m, e, -, p1, m0, -, -, h3, -⟩ := C110_pvalue u sort hsort d hd1 hd5 mem hmem n hn hn5
      have hm : r ≤ m := by
        rcases h3 with h3 | ⟨i, j, hij, hj, h3⟩
        · rw [h3]; exact hr1
        · rw [h3]; exact h u hu i j hij hj
      refine ⟨_, e, ?_, p1.le⟩
      refine le_trans ?_ ((fischler_le_iff n d hn5 hd1 hr m0).2 hm)
      obtain ⟨c0, c1⟩ := fischlerC_bounds n d hn5
      have hmono := (fischler_mono _ c0 c1).monotone hc
      rw [fischler_eq n d (by omega)]
      refine le_trans ?_ hmono
      have h5 : Real.exp (-(14 : ℝ)) ≤ 0.0004 * Real.exp (-6) := by
        rw [show -(14 : ℝ) = -8 + -6 by norm_num, Real.exp_add]
        exact mul_le_mul_of_nonneg_right (exp_small (by norm_num)) (Real.exp_pos _).le
      have h6 : Real.exp (-6 : ℝ) ≤ 1 / 200 := by
        rw [Real.exp_neg, inv_eq_one_div]
        refine one_div_le_one_div_of_le (by norm_num) ?_
        have h7 : Real.exp 6 = Real.exp 1 ^ 6 := by rw [← Real.exp_nat_mul]; norm_num
        rw [h7]
        refine le_trans ?_ (pow_le_pow_left₀ (by norm_num) (show (2.7 : ℝ) ≤ Real.exp 1 by linarith [Real.exp_one_gt_d9]) 6)
        norm_num
      have h8 : Real.exp (-(14 : ℝ)) ≤ 0.000002 := by linarith
      have h9 := Real.exp_pos (-(14 : ℝ))
      have h10 : Real.exp (-(14 : ℝ)) * (1 + fischlerC n d * 14 ^ 2) ≤ 0.000002 * 197 :=
        mul_le_mul h8 (by linarith) (by nlinarith) (by norm_num)
      norm_num at h10 ⊢
      linarith
    exact ⟨ps, h1, C139_high ps h2⟩

/-- **C151, coinciding points.**  If two points coincide, then the p-values are exactly 0. -/
theorem C151_zero (u : ℕ → ℝ) (sort : List (List ℝ) → List (List ℝ)) (hsort : Spec.Sorts sort) (d n i j : ℕ) (hd1 : 1 ≤ d) (hd5 : d ≤ 5)
    (hij : i < j) (hj : j < n) (h : ∀ k, k < d → u (d * i + k) = u (d * j + k)) (mem : List (List ℝ)) (hn : mem.length = n) :
    ((∀ p ∈ mem, p.length = 5) → 5 ≤ n → rgbMinimumDistance u sort d mem = .ok 0) ∧
      ((∀ p ∈ mem, p.length = 5) → d = 2 → diehard2dsphere u sort mem = .ok 0) ∧
      ((∀ m, 0 ≤ u m ∧ u m ≤ 1) → d = 3 → diehard3dsphere u n mem = .ok 0) := by
  have he : dist (unitPoint d u i) (unitPoint d u j) = 0 := by
    rw [dist_eq_zero, unitPoint, unitPoint]
    congr 1
    funext k
    exact h k k.2
  refine ⟨fun hmem hn5 => ?_, fun hmem hd => ?_, fun hu hd => ?_⟩
  · obtain ⟨m, e, p0, -, m0, -, h3, -, -⟩ := C110_pvalue u sort hsort d hd1 hd5 mem hmem n hn hn5
    have hm : m = 0 := le_antisymm (he ▸ h3 i j hij hj) m0
    have hv : closePairs n d 0 = 0 := by
      have : NeZero d := ⟨by omega⟩
      rw [closePairs, Metric.closedBall_zero, MeasureTheory.measureReal_def, MeasureTheory.measure_singleton]
      simp
    have := (fischler_bounds n d hn5 0).1
    rw [hm] at e p0
    rw [e, show fischler n d 0 = 0 by linarith]
  · subst hd
    obtain ⟨m, e, m0, -, h3, -⟩ := sphere2_run u sort hsort mem hmem
    have hm : m = 0 := by
      have := h3 i j hij (by omega)
      rw [he] at this
      linarith
    rw [e, hm]
    norm_num
  · subst hd
    obtain ⟨m, e, h3, ⟨a, b, -, -, hab⟩, -⟩ := C71_3dsphere u hu n (by omega) mem hn
    have m0 : 0 ≤ m := by rw [hab, cubeDist_unit]; positivity
    have hm : m = 0 := by
      have := h3 i j hij hj
      rw [cubeDist_unit, he] at this
      linarith
    rw [e, hm]
    norm_num

/-- **C151, short periods.**  The p-values are exactly 0 if the deviates repeat after fewer of them than there are points. -/
theorem C151_period (u : ℕ → ℝ) (sort : List (List ℝ) → List (List ℝ)) (hsort : Spec.Sorts sort) (d n T : ℕ) (hd1 : 1 ≤ d) (hd5 : d ≤ 5)
    (hT : 1 ≤ T) (hTn : T < n) (h : ∀ k, u (k + T) = u k) (mem : List (List ℝ)) (hn : mem.length = n) :
    ((∀ p ∈ mem, p.length = 5) → 5 ≤ n → rgbMinimumDistance u sort d mem = .ok 0) ∧
      ((∀ p ∈ mem, p.length = 5) → d = 2 → diehard2dsphere u sort mem = .ok 0) ∧
      ((∀ m, 0 ≤ u m ∧ u m ≤ 1) → d = 3 → diehard3dsphere u n mem = .ok 0) := by
  refine C151_zero u sort hsort d n 0 T hd1 hd5 (by omega) hTn (fun k _ => ?_) mem hn
  have : ∀ q k, u (q * T + k) = u k := by
    intro q
    induction q with
    | zero => intro k; rw [Nat.zero_mul, Nat.zero_add]
    | succ q ih => intro k; rw [show (q + 1) * T + k = q * T + k + T by ring, h, ih]
  rw [this d k, Nat.mul_zero, Nat.zero_add]

/-- **C151, few values.**  The p-values are exactly 0 if the deviates take `v` different values only and `v^d` is less than the number
of points. -/
theorem C151_values (u : ℕ → ℝ) (sort : List (List ℝ) → List (List ℝ)) (hsort : Spec.Sorts sort) (d n : ℕ) (hd1 : 1 ≤ d) (hd5 : d ≤ 5)
    (V : Finset ℝ) (hV : ∀ k, u k ∈ V) (hn' : V.card ^ d < n) (mem : List (List ℝ)) (hn : mem.length = n) :
    ((∀ p ∈ mem, p.length = 5) → 5 ≤ n → rgbMinimumDistance u sort d mem = .ok 0) ∧
      ((∀ p ∈ mem, p.length = 5) → d = 2 → diehard2dsphere u sort mem = .ok 0) ∧
      ((∀ m, 0 ≤ u m ∧ u m ≤ 1) → d = 3 → diehard3dsphere u n mem = .ok 0) := by
  have hcard : (Finset.univ : Finset (Fin d → V)).card < (Finset.range n).card := by
    rw [Finset.card_univ, Fintype.card_fun, Fintype.card_coe, Fintype.card_fin, Finset.card_range]
    exact hn'
  obtain ⟨a, ha, b, hb, hab, e⟩ := Finset.exists_ne_map_eq_of_card_lt_of_maps_to hcard
    (f := fun t => (fun k : Fin d => (⟨u (d * t + k), hV _⟩ : V))) (fun _ _ => Finset.mem_univ _)
  have he : ∀ k, k < d → u (d * a + k) = u (d * b + k) := fun k hk => by
    have := congrFun e ⟨k, hk⟩
    exact congrArg Subtype.val this
  rw [Finset.mem_range] at ha hb
  rcases Nat.lt_or_gt_of_ne hab with hlt | hlt
  · exact C151_zero u sort hsort d n a b hd1 hd5 hlt hb he mem hn
  · exact C151_zero u sort hsort d n b a hd1 hd5 hlt ha (fun k hk => (he k hk).symm) mem hn

/-- The deviates of a generator of 6 bits: at most 64 values, and 64² < 8000. -/
example (x : ℕ → ℕ) (hx : ∀ k, x k < 64) : diehard2dsphere (fun k => (x k : ℝ) / 64) exSort (List.replicate 8000 [0, 0, 0, 0, 0]) = .ok 0 := by
  refine (C151_values _ exSort exSort_sorts 2 8000 (by omega) (by omega) ((Finset.range 64).image fun m : ℕ => (m : ℝ) / 64)
    (fun k => Finset.mem_image.2 ⟨x k, Finset.mem_range.2 (hx k), rfl⟩) ?_ _ List.length_replicate).2.1
    (fun p hp => by rw [List.eq_of_mem_replicate hp]; rfl) rfl
  have h1 : ((Finset.range 64).image fun m : ℕ => (m : ℝ) / 64).card ≤ 64 := Finset.card_image_le.trans (by simp)
  exact lt_of_le_of_lt (Nat.pow_le_pow_left h1 2) (by norm_num)

/-- Six values are too few for 10000 points in five dimensions. -/
example (x : ℕ → ℕ) : rgbMinimumDistance (fun k => ((x k % 6 : ℕ) : ℝ) / 6) exSort 5 (List.replicate 10000 [0, 0, 0, 0, 0]) = .ok 0 := by
  refine (C151_values _ exSort exSort_sorts 5 10000 (by omega) (by omega) ((Finset.range 6).image fun m : ℕ => (m : ℝ) / 6)
    (fun k => Finset.mem_image.2 ⟨x k % 6, Finset.mem_range.2 (Nat.mod_lt _ (by omega)), rfl⟩) ?_ _ List.length_replicate).1
    (fun p hp => by rw [List.eq_of_mem_replicate hp]; rfl) (by omega)
  have h1 : ((Finset.range 6).image fun m : ℕ => (m : ℝ) / 6).card ≤ 6 := Finset.card_image_le.trans (by simp)
  exact lt_of_le_of_lt (Nat.pow_le_pow_left h1 5) (by norm_num)

/-- A period of 3999 deviates and 4000 points of the cube, with any values. -/
example (f : ℕ → ℝ) (hf : ∀ k, 0 ≤ f k ∧ f k ≤ 1) : diehard3dsphere (fun k => f (k % 3999)) 4000 (List.replicate 4000 []) = .ok 0 :=
  (C151_period _ exSort exSort_sorts 3 4000 3999 (by omega) (by omega) (by omega) (by omega) (fun k => by simp) _ List.length_replicate).2.2
    (fun m => hf _) rfl

/-- Points far apart, a hundred times in a row: the plane test fails at the other end. -/
example : ∃ ps : List ℝ, (List.replicate 100 fun k : ℕ => if k < 2 then (0.1 : ℝ) else 0.9).map
    (fun u => diehard2dsphere u exSort [[0, 0, 0, 0, 0], [0, 0, 0, 0, 0]]) = ps.map .ok ∧ FailsHigh ps := by
  refine (C151_2d exSort exSort_sorts _ (by simp) _).2 fun u hu i j hij hj => ?_
  rw [List.eq_of_mem_replicate hu]
  obtain ⟨rfl, rfl⟩ : i = 0 ∧ j = 1 := by simp at hj; omega
  rw [EuclideanSpace.dist_eq]
  refine Real.le_sqrt_of_sq_le ?_
  simp [unitPoint, Fin.sum_univ_two, Real.dist_eq]
  norm_num

end Dh
