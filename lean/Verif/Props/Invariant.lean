import Mathlib.Algebra.Module.ZMod
import Verif.Props.KsPower
import Verif.Props.Mirror
import Verif.Props.RankPower
import Verif.Props.PermMean
import Verif.Props.RunsMean
import Verif.Model.Operm5Stat
import Verif.Model.RunsStat
/-
C129: what some of the tests cannot see.
-/
namespace Dh
open Spec

/-! ### kstest and p-values turned round -/

theorem reflect_le (xs ys : List ℝ) (hxy : ys.Perm (xs.map fun x => 1 - x)) (s s' : List ℝ) (n : Nat) (hs : s.Perm xs) (hs' : s'.Perm ys)
    (ho : s.Pairwise (· ≤ ·)) (ho' : s'.Pairwise (· ≤ ·)) (hn : s.length = n) (j : Nat) (hj : j < s'.length) :
    ∃ hi : n - 1 - j < s.length, |s'[j] - ((j + 1 : ℕ) : ℝ) / ((n : ℝ) + 1)| = |s[n - 1 - j] - ((n - 1 - j + 1 : ℕ) : ℝ) / ((n : ℝ) + 1)| := by
  have hl' : s'.length = n := by rw [hs'.length_eq, hxy.length_eq, List.length_map, ← hs.length_eq, hn]
  have e : s' = (s.map fun x => 1 - x).reverse := by
    refine (hs'.trans (hxy.trans ?_)).eq_of_pairwise' ho' ?_
    · exact ((hs.map _).symm).trans (List.reverse_perm _).symm
    · rw [List.pairwise_reverse, List.pairwise_map]
      exact ho.imp fun h => by linarith
  refine ⟨by omega, ?_⟩
  have e1 : s'[j] = 1 - s[n - 1 - j]'(by omega) := by
    simp only [e, List.getElem_reverse, List.getElem_map, List.length_map, hn]
  have e2 : ((n - 1 - j + 1 : ℕ) : ℝ) = n - j := by
    rw [show n - 1 - j + 1 = n - j by omega, Nat.cast_sub (by omega)]
  have hn1 : (n : ℝ) + 1 ≠ 0 := by positivity
  rw [e1, e2, ← abs_neg]
  congr 1
  push_cast
  field_simp
  ring

/-- C129: if every p-value `p` becomes `1 - p`, the p-value of kstest stays what it was. -/
theorem C129_kstest (K : Nat → ℝ → ℝ) (xs ys : List ℝ) (h : 2 ≤ xs.length) (hxy : ys.Perm (xs.map fun x => 1 - x)) :
    ∃ D s s', kstest K xs xs.length = .ok (K xs.length D, s) ∧ kstest K ys ys.length = .ok (K xs.length D, s') := by
  have hl : ys.length = xs.length := by rw [hxy.length_eq, List.length_map]
  obtain ⟨s, D, h1, h2, h3, -, h4, j, hj, h5⟩ := kstest_distance K xs h
  obtain ⟨s', D', h1', h2', h3', -, h4', j', hj', h5'⟩ := kstest_distance K ys (by omega)
  have hyx : xs.Perm (ys.map fun x => 1 - x) := by
    have := hxy.map (fun x : ℝ => 1 - x)
    rw [List.map_map] at this
    have e : ((fun x : ℝ => 1 - x) ∘ fun x : ℝ => 1 - x) = id := by funext x; simp
    rw [e, List.map_id] at this
    exact this.symm
  have hD : D' = D := by
    apply le_antisymm
    · obtain ⟨hi, e⟩ := reflect_le xs ys hxy s s' xs.length h2 h2' h3 h3' h2.length_eq j' hj'
      rw [h5', hl, e]
      exact h4 _ hi
    · obtain ⟨hi, e⟩ := reflect_le ys xs hyx s' s ys.length h2' h2 h3' h3 h2'.length_eq j hj
      rw [h5, ← hl, e]
      exact h4' _ hi
  exact ⟨D, s, s', h1, by rw [h1', hD, hl]⟩

/-- C129: so a whole run of sts_monobit, of any number of samples, ends with the same p-value for a source and for its complement: `srcs` are the
sources from which the samples are drawn. -/
theorem C129_monobit (K : Nat → ℝ → ℝ) (cdf : ℝ → ℝ → ℝ) (hcdf : ∀ x σ, cdf (-x) σ = 1 - cdf x σ) (r : Nat) (hr0 : 0 < r) (hr : r ≤ 32)
    (srcs srcs' : Nat → Src) (hs : ∀ i n, (srcs i n).toNat < 2 ^ r) (hs' : ∀ i n, (srcs' i n).toNat < 2 ^ r)
    (h : ∀ i k, Opposite r (srcs i k) (srcs' i k)) (n : Nat) (hn : r * n < 2 ^ 32) (psamples : Nat) (hp : 2 ≤ psamples) :
    ∃ p s s', kstest K ((List.range psamples).map fun i => monobitTest cdf r (srcs i) n) psamples = .ok (p, s) ∧
      kstest K ((List.range psamples).map fun i => monobitTest cdf r (srcs' i) n) psamples = .ok (p, s') := by
  have e : ((List.range psamples).map fun i => monobitTest cdf r (srcs' i) n) =
      ((List.range psamples).map fun i => monobitTest cdf r (srcs i) n).map fun x => 1 - x := by
    rw [List.map_map]
    exact List.map_congr_left fun i _ => (C128_monobit cdf r hr0 hr _ _ (hs i) (hs' i) (h i) n hn).2 hcdf
  obtain ⟨D, s, s', h1, h2⟩ := C129_kstest K ((List.range psamples).map fun i => monobitTest cdf r (srcs i) n) _ (by simpa using hp) (.refl _)
  simp only [List.length_map, List.length_range] at h1 h2
  rw [e]
  exact ⟨_, s, s', h1, h2⟩

/-! ### Tests that look at the order only -/

theorem runsLoop_map {src src' : Src} (f : RunsSt → RunsSt) (g : Bool → Bool) (hf : ∀ s b, runsStep (f s) (g b) = f <$> runsStep s b) (n : Nat)
    (hc : ∀ i < n, ∀ j < n, i ≠ j → decide (src' j > src' i) = g (decide (src j > src i))) : ∀ (todo t m : Nat) (z z' : UInt) (s : RunsSt),
    t + todo < n → m < t → ∃ R : Res RunsSt, dhRunsLoop src (todo + 1) t (src m) z s = R >>= (fun s => .ok (src (t + todo), s)) ∧
      dhRunsLoop src' (todo + 1) t (src' m) z' (f s) = (f <$> R) >>= (fun s => .ok (src' (t + todo), s))
  | 0, t, m, z, z', s, h1, h2 => by
    refine ⟨runsStep s (decide (src t > src m)), ?_, ?_⟩
    · rw [dhRunsLoop]
      rfl
    · rw [dhRunsLoop]
      rw [hc m (by omega) t (by omega) (by omega), hf]
      rfl
  | todo + 1, t, m, z, z', s, h1, h2 => by
    rw [dhRunsLoop, dhRunsLoop]
    rw [hc m (by omega) t (by omega) (by omega), hf]
    cases hR : runsStep s (decide (src t > src m)) with
    | ok s1 =>
      obtain ⟨R, r1, r2⟩ := runsLoop_map f g hf n hc todo (t + 1) t (src t) (src' t) s1 (by omega) (by omega)
      refine ⟨R, ?_, ?_⟩
      · rw [Res.bind_ok, r1, show t + 1 + todo = t + (todo + 1) by omega]
      · rw [Res.map_ok, Res.bind_ok, r2, show t + 1 + todo = t + (todo + 1) by omega]
    | exit => exact ⟨.exit, rfl, rfl⟩
    | ub => exact ⟨.ub, rfl, rfl⟩
    | loop => exact ⟨.loop, rfl, rfl⟩

theorem runs_map {src src' : Src} (f : RunsSt → RunsSt) (g : Bool → Bool) (hf : ∀ s b, runsStep (f s) (g b) = f <$> runsStep s b) (n : Nat) (hn : 2 ≤ n)
    (hc : ∀ i < n, ∀ j < n, i ≠ j → decide (src' j > src' i) = g (decide (src j > src i)))
    (h0 : f ⟨1, 1, List.replicate runMax 0, List.replicate runMax 0⟩ = ⟨1, 1, List.replicate runMax 0, List.replicate runMax 0⟩) :
    ∃ R : Res RunsSt, runs src n = R >>= (fun s => .ok (s.upruns, s.downruns)) ∧
      runs src' n = R >>= (fun s => .ok ((f s).upruns, (f s).downruns)) := by
  obtain ⟨R, r1, r2⟩ := runsLoop_map f g hf n hc (n - 2) 1 0 0 0 ⟨1, 1, List.replicate runMax 0, List.replicate runMax 0⟩ (by omega) (by omega)
  rw [h0] at r2
  rw [show n - 2 + 1 = n - 1 by omega, show 1 + (n - 2) = n - 1 by omega] at r1 r2
  refine ⟨R >>= fun s => runsStep s (decide (src (n - 1) > src 0)), ?_, ?_⟩
  · rw [runs]
    simp only
    rw [r1]
    cases R <;> rfl
  · rw [runs]
    simp only
    rw [r2]
    cases R with
    | ok s =>
      simp only [Res.map_ok, Res.bind_ok]
      rw [hc 0 (by omega) (n - 1) (by omega) (by omega), hf]
      cases runsStep s (decide (src (n - 1) > src 0)) <;> rfl
    | exit => rfl
    | ub => rfl
    | loop => rfl

/-- C129: the runs test depends on the results of the comparisons only. -/
theorem C129_runs (gammaQ : ℝ → ℝ → ℝ) (src src' : Src) (n : Nat) (hn : 2 ≤ n) (h : ∀ i < n, ∀ j < n, (src i < src j ↔ src' i < src' j)) :
    runs src' n = runs src n ∧ runsTest gammaQ src' n = runsTest gammaQ src n := by
  obtain ⟨R, r1, r2⟩ := runs_map (src := src) (src' := src') id id (fun s b => by cases h : runsStep s b <;> simp [h]) n hn
    (fun i hi j hj _ => by simp only [id_eq, gt_iff_lt, h i hi j hj]) rfl
  have e : runs src' n = runs src n := by rw [r1, r2]; rfl
  exact ⟨e, by rw [runsTest, runsTest, e]⟩

/-- C129: if the order is reversed and no two values are equal, the numbers of ascending and of descending runs are exchanged, and so are the two
p-values. -/
theorem C129_runs_reversed (gammaQ : ℝ → ℝ → ℝ) (src src' : Src) (n : Nat) (hn : 2 ≤ n) (hd : ∀ i < n, ∀ j < n, src i = src j → i = j)
    (h : ∀ i < n, ∀ j < n, (src i < src j ↔ src' j < src' i)) :
    runs src' n = (runs src n).map Prod.swap ∧ runsTest gammaQ src' n = (runsTest gammaQ src n).map Prod.swap := by
  obtain ⟨R, r1, r2⟩ := runs_map (src := src) (src' := src') (fun s => ⟨s.dcount, s.ucount, s.downruns, s.upruns⟩) not (fun s b => by
      cases b
      · rw [runsStep, runsStep]
        simp only [Bool.not_false, if_true, Bool.false_eq_true, if_false]
        cases bump s.upruns (s.ucount - 1) <;> rfl
      · rw [runsStep, runsStep]
        simp only [Bool.not_true, if_true, Bool.false_eq_true, if_false]
        cases bump s.downruns (s.dcount - 1) <;> rfl) n hn
    (fun i hi j hj hij => by
      have := h j hj i hi
      have hne : src i ≠ src j := fun e => hij (hd i hi j hj e)
      have h2 : src' i < src' j ↔ ¬ src i < src j := by
        rw [← this, BitVec.lt_def, BitVec.lt_def]
        have : (src i).toNat ≠ (src j).toNat := fun e => hne (BitVec.eq_of_toNat_eq e)
        omega
      rw [Bool.eq_iff_iff]
      simp only [decide_eq_true_eq, Bool.not_eq_true', decide_eq_false_iff_not]
      exact h2) rfl
  have e : runs src' n = (runs src n).map Prod.swap := by
    rw [r1, r2]
    cases R <;> rfl
  refine ⟨e, ?_⟩
  obtain ⟨up, down, h1, h2, h3, -⟩ := C36_runs src n (by omega)
  rw [runsTest, runsTest, e, h1]
  simp only [Res.map, Prod.swap, Res.bind_ok]
  rw [runsQuadLoop_eq up h2 n runMax 0 0 (by rw [runMax]), runsQuadLoop_eq down h3 n runMax 0 0 (by rw [runMax])]
  rfl

/-- C129: the test of overlapping permutations depends on the order of the values only (as signed numbers), whether they are all different or not. -/
theorem C129_operm5 (gammaQ : ℝ → ℝ → ℝ) (overlap : Bool) (src src' : Src) (n : Nat) (h : ∀ i j, (src i).toInt ≤ (src j).toInt ↔ (src' i).toInt ≤ (src' j).toInt) :
    operm5 overlap src' n = operm5 overlap src n ∧ operm5Test gammaQ overlap src' n = operm5Test gammaQ overlap src n := by
  have e : operm5 overlap src' n = operm5 overlap src n := by
    obtain ⟨c, c1, c2, -, c3⟩ := C31_tally overlap src n
    obtain ⟨c', c1', c2', -, c3'⟩ := C31_tally overlap src' n
    rw [c1, c1']
    congr 1
    apply List.ext_getElem
    · rw [c2, c2']
    · intro i hi hi'
      have a := c3 i
      have b := c3' i
      rw [List.getD_eq_getElem _ _ hi'] at a
      rw [List.getD_eq_getElem _ _ hi] at b
      rw [a, b]
      apply List.countP_congr
      intro t _
      rw [kperm, kperm, kpermLoop_congr 4 _ _ 0 fun a _ b _ => h _ _]
  exact ⟨e, by rw [operm5Test, operm5Test, e]⟩

/-- C129: the permutations test depends on the order of the values only, if no tuple has two equal values. -/
theorem C129_permutations {sortIndex : List UInt → List Nat} (hs : SortIndexOk sortIndex) {lookup : Nat → List (List Nat)}
    (hl : ∀ k, LookupOk k (lookup k)) (ntuple k : Nat) (hk : k = if ntuple < 2 then 5 else ntuple) (hk12 : k ≤ 12) (src src' : Src) (n : Nat)
    (hd : ∀ t < n, Distinct k fun i => (src (k * t + i)).toNat) (h : ∀ i j, src i ≤ src j ↔ src' i ≤ src' j) :
    rgbPermutationsStat ntuple sortIndex lookup src' n = rgbPermutationsStat ntuple sortIndex lookup src n := by
  have hget : ∀ (s : Src) (t i : Nat), i < k → ((List.range k).map fun i => s (k * t + i)).getD i 0 = s (k * t + i) := by
    intro s t i hi
    rw [List.getD_eq_getElem _ _ (by simpa using hi)]
    simp
  have e : rgbPermutations ntuple sortIndex lookup src' n = rgbPermutations ntuple sortIndex lookup src n := by
    obtain ⟨c, c1, c2, -, c3⟩ := C60_tally hs hl ntuple k hk hk12 src n
    obtain ⟨c', c1', c2', -, c3'⟩ := C60_tally hs hl ntuple k hk hk12 src' n
    rw [c1, c1']
    congr 1
    apply List.ext_getElem
    · rw [c2, c2']
    · intro i hi hi'
      have a := c3 i
      have b := c3' i
      rw [List.getD_eq_getElem _ _ hi'] at a
      rw [List.getD_eq_getElem _ _ hi] at b
      rw [a, b]
      apply List.countP_congr
      intro t ht
      have hd0 := hd t (List.mem_range.1 ht)
      have ho : permCell sortIndex (lookup k) ((List.range k).map fun i => src' (k * t + i)) =
          permCell sortIndex (lookup k) ((List.range k).map fun i => src (k * t + i)) := by
        rw [C60_order hs (hl k) _ _ (by simp) (by simp)]
        · intro a ha b hb
          simp only [hget _ _ _ ha, hget _ _ _ hb]
          exact (h _ _).symm
        · intro a ha b hb e
          simp only [hget _ _ _ ha, hget _ _ _ hb] at e
          have e' := BitVec.eq_of_toNat_eq e
          refine hd0 a ha b hb (congrArg BitVec.toNat ?_)
          have l1 := (h (k * t + a) (k * t + b)).2 (by rw [e']; exact BitVec.le_refl _)
          have l2 := (h (k * t + b) (k * t + a)).2 (by rw [e']; exact BitVec.le_refl _)
          exact BitVec.le_antisymm l1 l2
        · intro a ha b hb e
          simp only [hget _ _ _ ha, hget _ _ _ hb] at e
          exact hd0 a ha b hb e
      rw [ho]
  rw [rgbPermutationsStat, rgbPermutationsStat, e]

/-! ### Linear maps and the rank -/

theorem wordVec_xor (x y : UInt) : wordVec (x ^^^ y) = wordVec x + wordVec y := by
  funext j
  simp only [wordVec, BitVec.getLsbD_xor, Pi.add_apply]
  cases x.getLsbD j <;> cases y.getLsbD j <;> decide

theorem wordVec_bij : Function.Bijective wordVec := by
  have hi : Function.Injective wordVec := by
    intro x y h
    apply BitVec.eq_of_getLsbD_eq
    intro i hi
    have := congrFun h ⟨i, hi⟩
    simp only [wordVec] at this
    cases hx : x.getLsbD i <;> cases hy : y.getLsbD i <;> simp [hx, hy] at this ⊢
  refine ⟨hi, fun v => ⟨BitVec.ofNat 32 (Nat.ofBits fun j : Fin 32 => decide (v j = 1)), ?_⟩⟩
  funext j
  have h2 : ∀ z : ZMod 2, (if decide (z = 1) = true then (1 : ZMod 2) else 0) = z := by decide
  have hj := j.2
  rw [wordVec, BitVec.getLsbD_ofNat, Nat.testBit_ofBits_lt _ _ hj]
  simp only [hj, decide_true, Bool.true_and]
  exact h2 (v j)

/-- C129: if every 32-bit word is transformed by the same one-to-one map that respects exclusive or (a reordering of the bits, say, or a shift
combined with exclusive or), the 32x32 rank test gives the same result. -/
theorem C129_rank (L : UInt → UInt) (hL : ∀ x y, L (x ^^^ y) = L x ^^^ L y) (hinj : Function.Injective L) (src : Src) (n : Nat) :
    (diehardRank32 32 (fun k => L (src k)) n GBState.init).map Prod.fst = (diehardRank32 32 src n GBState.init).map Prod.fst := by
  have hw : ∀ s : Src, Width 32 s := fun s k i hi => BitVec.getLsbD_of_ge _ _ hi
  let e := Equiv.ofBijective wordVec wordVec_bij
  let φ : (Fin 32 → ZMod 2) →+ (Fin 32 → ZMod 2) := AddMonoidHom.mk' (fun v => wordVec (L (e.symm v))) fun a b => by
    have : e.symm (a + b) = e.symm a ^^^ e.symm b := by
      rw [Equiv.symm_apply_eq]
      show a + b = wordVec _
      rw [wordVec_xor]
      congr 1
      · exact (e.apply_symm_apply a).symm
      · exact (e.apply_symm_apply b).symm
    rw [this, hL, wordVec_xor]
  let ψ := φ.toZModLinearMap 2
  have hψ : ∀ x, ψ (wordVec x) = wordVec (L x) := by
    intro x
    show wordVec (L (e.symm (e x))) = _
    rw [e.symm_apply_apply]
  have hψi : Function.Injective ψ := by
    intro a b h
    obtain ⟨x, rfl⟩ := wordVec_bij.2 a
    obtain ⟨y, rfl⟩ := wordVec_bij.2 b
    rw [hψ, hψ] at h
    rw [hinj (wordVec_bij.1 h)]
  have hrank : ∀ t, (sampleMatrix 32 (fun k => L (src k)) 32 32 t).rank = (sampleMatrix 32 src 32 32 t).rank := by
    intro t
    rw [Matrix.rank_eq_finrank_span_row, Matrix.rank_eq_finrank_span_row]
    have : Set.range (sampleMatrix 32 (fun k => L (src k)) 32 32 t).row = ψ '' Set.range (sampleMatrix 32 src 32 32 t).row := by
      rw [← Set.range_comp]
      congr 1
      funext i
      show sampleMatrix 32 (fun k => L (src k)) 32 32 t i = ψ (sampleMatrix 32 src 32 32 t i)
      rw [wordVec_row, wordVec_row, hψ]
    rw [this, Submodule.span_image]
    exact (Submodule.equivMapOfInjective ψ hψi _).finrank_eq.symm
  have ht : ∀ p, rankTally 32 (fun k => L (src k)) 32 32 n p = rankTally 32 src 32 32 n p := by
    intro p
    simp only [rankTally, hrank]
  rw [C67_rank_32x32 32 _ (by norm_num) le_rfl (hw _), C67_rank_32x32 32 _ (by norm_num) le_rfl (hw _)]
  simp only [ht]

/-- The rank test does not see whether the upper half of every word is added to the lower. -/
example (src : Src) (n : Nat) : (diehardRank32 32 (fun k => src k ^^^ (src k >>> 16)) n GBState.init).map Prod.fst =
    (diehardRank32 32 src n GBState.init).map Prod.fst := by
  refine C129_rank (fun x => x ^^^ (x >>> 16)) (fun x y => ?_) (Function.Involutive.injective fun x => ?_) src n
  · apply BitVec.eq_of_getLsbD_eq
    intro i _
    simp only [BitVec.getLsbD_xor, BitVec.getLsbD_ushiftRight]
    cases x.getLsbD i <;> cases y.getLsbD i <;> cases x.getLsbD (16 + i) <;> cases y.getLsbD (16 + i) <;> rfl
  · apply BitVec.eq_of_getLsbD_eq
    intro i _
    simp only [BitVec.getLsbD_xor, BitVec.getLsbD_ushiftRight]
    rw [BitVec.getLsbD_of_ge x (16 + (16 + i)) (by omega)]
    cases x.getLsbD i <;> cases x.getLsbD (16 + i) <;> rfl

example : runs (fun t => [5, 2, 4, 9].getD t 0) 4 = .ok ([1, 0, 0, 0, 0, 0], [2, 1, 0, 0, 0, 0]) ∧
    runs (fun t => [50, 3, 48, 1000].getD t 0) 4 = .ok ([1, 0, 0, 0, 0, 0], [2, 1, 0, 0, 0, 0]) ∧
    runs (fun t => ~~~([5, 2, 4, 9].getD t 0)) 4 = .ok ([2, 1, 0, 0, 0, 0], [1, 0, 0, 0, 0, 0]) := by decide +kernel

/-- Two p-values and the same turned round have the same distance. -/
example (K : Nat → ℝ → ℝ) : ∃ D s s', kstest K [0.1, 0.3] 2 = .ok (K 2 D, s) ∧ kstest K [0.7, 0.9] 2 = .ok (K 2 D, s') :=
  C129_kstest K [0.1, 0.3] [0.7, 0.9] (by simp) (by norm_num; exact List.Perm.swap _ _ _)

end Dh
