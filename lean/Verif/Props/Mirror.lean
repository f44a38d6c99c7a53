import Verif.Props.Missing
import Verif.Props.Count1sMean
import Verif.Props.SerialMean
import Verif.Props.XtestMean
/-
C128: a source and its complement.
-/
namespace Dh

namespace Spec

/-- Of two words each of the last `r` bits is 1 in one and 0 in the other. -/
def Opposite (r : Nat) (x y : UInt) : Prop := ∀ i < r, y.getLsbD i = !x.getLsbD i

end Spec

open Spec

theorem opposite_not (x : UInt) : Opposite 32 x (~~~x) := by
  intro i hi
  rw [BitVec.getLsbD_not]
  simp [hi]

/-! ### Words not seen -/

theorem range_reflect (N : Nat) : (List.range N).map (fun v => N - 1 - v) = (List.range N).reverse := by
  apply List.ext_getElem
  · simp
  · intro i h1 h2
    simp

theorem countP_reflect (N : Nat) (p : Nat → Bool) : (List.range N).countP (fun v => p (N - 1 - v)) = (List.range N).countP p := by
  have := congrArg (List.countP p) (range_reflect N)
  rw [List.countP_map, List.countP_reverse] at this
  exact this

theorem count_reflect (N : Nat) (l : List Nat) (hl : ∀ v ∈ l, v < N) (v : Nat) (hv : v < N) :
    (l.map fun x => N - 1 - x).count (N - 1 - v) = l.count v := by
  rw [List.count, List.countP_map, List.count]
  apply List.countP_congr
  intro x hx
  have := hl x hx
  simp only [Function.comp_apply, beq_iff_eq]
  omega

theorem missing_reflect (N : Nat) (l : List Nat) (hl : ∀ v ∈ l, v < N) : missing N (l.map fun x => N - 1 - x) = missing N l := by
  rw [missing, missing, ← countP_reflect]
  apply List.countP_congr
  intro v hv
  have := count_reflect N l hl v (List.mem_range.1 hv)
  rw [decide_eq_true_iff, decide_eq_true_iff, ← List.count_eq_zero, ← List.count_eq_zero, this]

theorem missing256_reflect (N : Nat) (l : List Nat) (hl : ∀ v ∈ l, v < N) : missing256 N (l.map fun x => N - 1 - x) = missing256 N l := by
  rw [missing256, missing256, ← countP_reflect]
  apply List.countP_congr
  intro v hv
  rw [count_reflect N l hl v (List.mem_range.1 hv)]

theorem map_words {N n : Nat} {f g : Nat → Nat} (h : ∀ t, f t = N - 1 - g t) :
    (List.range n).map f = ((List.range n).map g).map fun x => N - 1 - x := by
  rw [List.map_map]
  exact List.map_congr_left fun t _ => h t

theorem field_opposite {r : Nat} {x y : UInt} (h : Opposite r x y) (off n : Nat) (hr : off + n ≤ r) : field y off n = 2 ^ n - 1 - field x off n := by
  have hx := field_lt x off n
  apply Nat.eq_of_testBit_eq
  intro i
  rw [show 2 ^ n - 1 - field x off n = 2 ^ n - (field x off n + 1) by omega, Nat.testBit_two_pow_sub_succ hx]
  rw [field, field, Nat.testBit_mod_two_pow, Nat.testBit_mod_two_pow, ← Nat.shiftRight_eq_div_pow, ← Nat.shiftRight_eq_div_pow,
    Nat.testBit_shiftRight, Nat.testBit_shiftRight, BitVec.testBit_toNat, BitVec.testBit_toNat]
  by_cases hi : i < n
  · rw [h (off + i) (by omega)]
    simp [hi]
  · simp [hi]

theorem opsoWord_opposite {src src' : Src} (h : ∀ k, Opposite 20 (src k) (src' k)) (t : Nat) : opsoWord src' t = 2 ^ 20 - 1 - opsoWord src t := by
  have a := field_lt (src (2 * (t / 2))) (10 * (t % 2)) 10
  have b := field_lt (src (2 * (t / 2) + 1)) (10 * (t % 2)) 10
  rw [opsoWord, opsoWord, field_opposite (h _) _ _ (by omega), field_opposite (h _) _ _ (by omega)]
  omega

theorem oqsoWord_opposite {src src' : Src} (h : ∀ k, Opposite 30 (src k) (src' k)) (t : Nat) : oqsoWord src' t = 2 ^ 20 - 1 - oqsoWord src t := by
  have a (c) := field_lt (src (4 * (t / 6) + c)) (5 * (t % 6)) 5
  have a0 := a 0
  have a1 := a 1
  have a2 := a 2
  have a3 := a 3
  rw [oqsoWord, oqsoWord]
  simp only
  rw [field_opposite (h _) _ _ (by omega), field_opposite (h _) _ _ (by omega), field_opposite (h _) _ _ (by omega), field_opposite (h _) _ _ (by omega)]
  omega

theorem opso2_opposite {src src' : Src} (h : ∀ k, Opposite 24 (src k) (src' k)) (t : Nat) :
    opso2Low src' t = 2 ^ 24 - 1 - opso2Low src t ∧ opso2Pair src' t = 2 ^ 24 - 1 - opso2Pair src t := by
  have a := field_lt (src (2 * (t / 2))) (12 * (t % 2)) 12
  have b := field_lt (src (2 * (t / 2) + 1)) (12 * (t % 2)) 12
  rw [opso2Low, opso2Low, opso2Pair, opso2Pair, field_opposite (h _) _ _ (by omega), field_opposite (h _) _ _ (by omega),
    field_opposite (h _) _ _ (by omega)]
  omega

theorem base4_snoc (l : List Nat) (a : Nat) : base4 (l ++ [a]) = 4 * base4 l + a := by simp [base4]

theorem base4_reflect (f g : Nat → Nat) (hf : ∀ c, f c < 4) (h : ∀ c, g c = 3 - f c) : ∀ m,
    base4 ((List.range m).map f) < 4 ^ m ∧ base4 ((List.range m).map g) = 4 ^ m - 1 - base4 ((List.range m).map f)
  | 0 => by simp [base4]
  | m + 1 => by
    obtain ⟨h1, h2⟩ := base4_reflect f g hf h m
    have h3 := hf m
    rw [List.range_succ, List.map_append, List.map_append, List.map_singleton, List.map_singleton, base4_snoc, base4_snoc, h2, h m, pow_succ]
    omega

theorem dnaWord_opposite {r : Nat} (hr : 0 < r) {src src' : Src} (h : ∀ k, Opposite r (src k) (src' k)) (t : Nat) :
    dnaWord r src t < 2 ^ 20 ∧ dnaWord r src' t = 2 ^ 20 - 1 - dnaWord r src t := by
  have := base4_reflect (fun c => pair r (src (11 + 10 * (t / 32) + c)) (t % 32)) (fun c => pair r (src' (11 + 10 * (t / 32) + c)) (t % 32))
    (fun c => pair_lt _ _ _) (fun c => by
      simp only [pair]
      rw [h _ _ (Nat.mod_lt _ hr), h _ _ (Nat.mod_lt _ hr)]
      cases (src (11 + 10 * (t / 32) + c)).getLsbD (t % 32 % r) <;> cases (src (11 + 10 * (t / 32) + c)).getLsbD ((t % 32 + 1) % r) <;> rfl) 10
  rw [show (4 : Nat) ^ 10 = 2 ^ 20 by norm_num] at this
  exact this

theorem window_opposite {src src' : Src} (h : ∀ k, Opposite 32 (src k) (src' k)) (k : Nat) : ∀ n,
    window (streamBit src') k n = 2 ^ n - 1 - window (streamBit src) k n
  | 0 => by simp [window]
  | n + 1 => by
    have hl := window_lt (streamBit src) k n
    rw [window_succ, window_succ, window_opposite h k n, pow_succ]
    have : streamBit src' (k + n) = !streamBit src (k + n) := by
      rw [streamBit, streamBit, msb, msb, h _ _ (by omega)]
      simp [Nat.mod_lt]
    rw [this]
    cases streamBit src (k + n)
    · simp only [Bool.not_false, Bool.toNat_true, Bool.toNat_false]; omega
    · simp only [Bool.not_true, Bool.toNat_true, Bool.toNat_false]; omega

/-- C128: the tests of missing words report the same number for a source and for its complement. -/
theorem C128_missing (src src' : Src) (n : Nat) :
    ((∀ k, Opposite 20 (src k) (src' k)) → opso src' n = opso src n) ∧
    ((∀ k, Opposite 30 (src k) (src' k)) → oqso src' n = oqso src n) ∧
    (∀ r, 0 < r → r ≤ 32 → (∀ k, (src k).toNat < 2 ^ r) → (∀ k, (src' k).toNat < 2 ^ r) → (∀ k, Opposite r (src k) (src' k)) → dna r src' n = dna r src n) ∧
    (∀ r, (∀ k, Opposite 24 (src k) (src' k)) → opso2 r src' n = opso2 r src n) ∧
    ((∀ k, Opposite 32 (src k) (src' k)) → bitstream src' n = bitstream src n) := by
  refine ⟨fun h => ?_, fun h => ?_, fun r hr hr32 hs hs' h => ?_, fun r h => ?_, fun h => ?_⟩
  · rw [C45_opso, C45_opso, map_words (opsoWord_opposite h), missing_reflect]
    intro v hv
    obtain ⟨t, -, rfl⟩ := List.mem_map.1 hv
    exact opsoWord_lt src t
  · rw [C45_oqso, C45_oqso, map_words (oqsoWord_opposite h), missing_reflect]
    intro v hv
    obtain ⟨t, -, rfl⟩ := List.mem_map.1 hv
    exact oqsoWord_lt src t
  · rw [C45_dna r hr hr32 src hs, C45_dna r hr hr32 src' hs', map_words fun t => (dnaWord_opposite hr h t).2, missing256_reflect]
    intro v hv
    obtain ⟨t, -, rfl⟩ := List.mem_map.1 hv
    exact (dnaWord_opposite hr h t).1
  · by_cases hr : r < 24
    · rw [(C45_opso2_refuses r src n).2 hr, (C45_opso2_refuses r src' n).2 hr]
    · rw [C45_opso2 r (by omega), C45_opso2 r (by omega), map_words fun t => (opso2_opposite h t).1, map_words fun t => (opso2_opposite h t).2,
        missing_reflect, missing_reflect]
      · intro v hv
        obtain ⟨t, -, rfl⟩ := List.mem_map.1 hv
        exact opso2Pair_lt src t
      · intro v hv
        obtain ⟨t, -, rfl⟩ := List.mem_map.1 hv
        exact field_lt _ _ _
  · by_cases hn : n ≤ 8388640
    · rw [C32_bitstream src n hn, C32_bitstream src' n hn, map_words fun t => window_opposite h (t + 8) 20, missing256_reflect]
      intro v hv
      obtain ⟨t, -, rfl⟩ := List.mem_map.1 hv
      exact window_lt _ _ _
    · rw [C32_bitstream_overrun src n (by omega), C32_bitstream_overrun src' n (by omega)]

/-! ### Counting ones -/

theorem byteOnes_bit : ∀ b < 256, letter (255 - b) = 4 - letter b := by decide +kernel

theorem cyclicByte_opposite {x y : UInt} (h : Opposite 32 x y) (off : Nat) : letter (cyclicByte y off) = 4 - letter (cyclicByte x off) := by
  have hlt : cyclicByte x off < 256 := Nat.mod_lt _ (by norm_num)
  rw [← byteOnes_bit _ hlt]
  congr 1
  have hxy : y = ~~~x := by
    apply BitVec.eq_of_getLsbD_eq
    intro i hi
    rw [h i hi, BitVec.getLsbD_not]
    simp [hi]
  apply Nat.eq_of_testBit_eq
  intro i
  rw [show 255 - cyclicByte x off = 2 ^ 8 - (cyclicByte x off + 1) by omega, Nat.testBit_two_pow_sub_succ (by simpa using hlt)]
  rw [cyclicByte, cyclicByte, show (256 : Nat) = 2 ^ 8 from rfl, Nat.testBit_mod_two_pow, Nat.testBit_mod_two_pow, BitVec.testBit_toNat, BitVec.testBit_toNat,
    hxy, BitVec.getLsbD_rotateRight, BitVec.getLsbD_rotateRight, BitVec.getLsbD_not, BitVec.getLsbD_not]
  by_cases hi : i < 8
  · have h1 : 32 - off % 32 + (0 : Nat) ≤ 32 := by omega
    have h2 : i - (32 - off % 32) < 32 := by omega
    by_cases hc : i < 32 - off % 32
    · simp only [hi, hc, decide_true, Bool.true_and]
      have : off % 32 + i < 32 := by omega
      simp [this]
    · simp only [hi, hc, decide_true, Bool.true_and]
      have : i < 32 := by omega
      simp [this, h2]
  · simp [hi]

theorem base5_reflect (f g : Nat → Nat) (hf : ∀ c, f c < 5) (h : ∀ c, g c = 4 - f c) : ∀ m,
    base5 ((List.range m).map f) < 5 ^ m ∧ base5 ((List.range m).map g) = 5 ^ m - 1 - base5 ((List.range m).map f)
  | 0 => by simp [base5]
  | m + 1 => by
    obtain ⟨h1, h2⟩ := base5_reflect f g hf h m
    have h3 := hf m
    rw [List.range_succ, List.map_append, List.map_append, List.map_singleton, List.map_singleton, base5_append, base5_append, h2, h m, pow_succ]
    omega

theorem wordShare_reflect : ∀ m v, v < 5 ^ m → wordShare m (5 ^ m - 1 - v) = wordShare m v
  | 0, v, h => by
    have : v = 0 := by omega
    subst this
    rfl
  | m + 1, v, h => by
    rw [pow_succ] at h ⊢
    rw [wordShare_succ, wordShare_succ, show (5 ^ m * 5 - 1 - v) / 5 = 5 ^ m - 1 - v / 5 by omega, wordShare_reflect m _ (by omega),
      show (5 ^ m * 5 - 1 - v) % 5 = 4 - v % 5 by omega, letter_count _ (by omega), letter_count _ (by omega)]
    have : v % 5 < 5 := Nat.mod_lt _ (by norm_num)
    generalize v % 5 = d at this
    interval_cases d <;> rfl

theorem wordStat_reflect (m n : Nat) (X Y : Nat → Nat) (hX : ∀ t, X t < 5 ^ m) (h : ∀ t, Y t = 5 ^ m - 1 - X t) : wordStat m n Y = wordStat m n X := by
  rw [wordStat, wordStat, ← Finset.sum_range_reflect]
  apply Finset.sum_congr rfl
  intro v hv
  rw [Finset.mem_range] at hv
  rw [wordShare_reflect m v hv]
  have : (List.range n).countP (fun t => decide (Y t = 5 ^ m - 1 - v)) = (List.range n).countP (fun t => decide (X t = v)) := by
    apply List.countP_congr
    intro t _
    have := hX t
    have := h t
    rw [decide_eq_true_iff, decide_eq_true_iff]
    omega
  rw [this]

theorem streamWord_opposite {w w' : Src} (h : ∀ k, Opposite 32 (w k) (w' k)) (k m : Nat) :
    streamWord w k m < 5 ^ m ∧ streamWord w' k m = 5 ^ m - 1 - streamWord w k m := by
  refine base5_reflect _ _ (fun c => letter_lt _) (fun c => ?_) m
  rw [← cyclicByte_stream, ← cyclicByte_stream]
  exact cyclicByte_opposite (h _) _

theorem offsetWord_opposite {w w' : Src} (h : ∀ k, Opposite 32 (w k) (w' k)) (t k m : Nat) :
    offsetWord w t k m < 5 ^ m ∧ offsetWord w' t k m = 5 ^ m - 1 - offsetWord w t k m :=
  base5_reflect _ _ (fun _ => letter_lt _) (fun _ => cyclicByte_opposite (h _) _) m

/-- C128: the count-the-1s tests have the same p-value for a source and for its complement. -/
theorem C128_count1s (gaussP : ℝ → ℝ → ℝ) (w w' : Src) (h : ∀ k, Opposite 32 (w k) (w' k)) (n : Nat) (hn : 79280 ≤ n) :
    c1sStreamTest gaussP w' n = c1sStreamTest gaussP w n ∧ c1sByteTest gaussP w' n = c1sByteTest gaussP w n := by
  rw [(C85_statistic gaussP w n hn).1, (C85_statistic gaussP w n hn).2, (C85_statistic gaussP w' n hn).1, (C85_statistic gaussP w' n hn).2]
  rw [wordStat_reflect 5 n _ _ (fun t => (streamWord_opposite h t 5).1) fun t => (streamWord_opposite h t 5).2,
    wordStat_reflect 4 n _ _ (fun t => (streamWord_opposite h (t + 1) 4).1) fun t => (streamWord_opposite h (t + 1) 4).2,
    wordStat_reflect 5 n _ _ (fun t => (offsetWord_opposite h t (5 * t) 5).1) fun t => (offsetWord_opposite h t (5 * t) 5).2,
    wordStat_reflect 4 n _ _ (fun t => (offsetWord_opposite h t (5 * t + 1) 4).1) fun t => (offsetWord_opposite h t (5 * t + 1) 4).2]
  exact ⟨rfl, rfl⟩

/-! ### The sts tests -/

theorem lsbStream_opposite {r : Nat} (hr0 : 0 < r) {src src' : Src} (h : ∀ k, Opposite r (src k) (src' k)) (k : Nat) :
    lsbStream r src' k = !lsbStream r src k := h _ _ (Nat.mod_lt _ hr0)

/-- C128: in sts_monobit the complement changes the sign of the excess of ones over zeros; with a symmetric distribution the p-value `p` becomes
`1 - p`. -/
theorem C128_monobit (cdf : ℝ → ℝ → ℝ) (r : Nat) (hr0 : 0 < r) (hr : r ≤ 32) (src src' : Src) (hs : ∀ n, (src n).toNat < 2 ^ r)
    (hs' : ∀ n, (src' n).toNat < 2 ^ r) (h : ∀ k, Opposite r (src k) (src' k)) (n : Nat) (hn : r * n < 2 ^ 32) :
    stsMonobit r src' n = -stsMonobit r src n ∧
      ((∀ x σ, cdf (-x) σ = 1 - cdf x σ) → monobitTest cdf r src' n = 1 - monobitTest cdf r src n) := by
  have e : stsMonobit r src' n = -stsMonobit r src n := by
    rw [C38_monobit r hr0 hr src hs n hn, C38_monobit r hr0 hr src' hs' n hn]
    simp only [lsbStream_opposite hr0 h, Bool.not_not]
    ring
  refine ⟨e, fun hc => ?_⟩
  rw [monobitTest, monobitTest, xtestEval, xtestEval, e, ← hc]
  push_cast
  ring_nf

theorem cyclicBit_opposite {r : Nat} (hr0 : 0 < r) {ws ws' : List UInt} (h : List.Forall₂ (Opposite r) ws ws') (h0 : 0 < ws.length) (k : Nat) :
    cyclicBit r ws' k = !cyclicBit r ws k := by
  have hl := h.length_eq
  rw [cyclicBit, cyclicBit, ← hl]
  have hi : k / r % ws.length < ws.length := Nat.mod_lt _ h0
  have hrev : List.Forall₂ (Opposite r) ws.reverse ws'.reverse := by rwa [List.forall₂_reverse_iff]
  rw [List.getD_eq_getElem _ _ (by rw [List.length_reverse, ← hl]; exact hi), List.getD_eq_getElem _ _ (by simpa using hi)]
  exact (List.forall₂_iff_get.1 hrev).2 _ (by simpa using hi) (by rw [List.length_reverse, ← hl]; exact hi) _ (Nat.mod_lt _ hr0)

/-- C128: sts_runs has the same p-value for a source and for its complement. -/
theorem C128_runs (cdf : ℝ → ℝ → ℝ) (r : Nat) (hr0 : 0 < r) (hr : r ≤ 32) (ws ws' : List UInt) (hw : ∀ x ∈ ws, ∀ i, r ≤ i → x.getLsbD i = false)
    (hw' : ∀ x ∈ ws', ∀ i, r ≤ i → x.getLsbD i = false) (h : List.Forall₂ (Opposite r) ws ws') (h0 : 0 < ws.length) :
    stsRunsTest cdf r ws' = stsRunsTest cdf r ws := by
  obtain ⟨c, e1, e2, e3⟩ := C39_sts_runs r ws hr0 hr hw
  obtain ⟨c', e1', e2', e3'⟩ := C39_sts_runs r ws' hr0 hr hw'
  have hl := h.length_eq
  have hx : c'.x = c.x := by
    rw [e2, e2', ← hl]
    apply List.countP_congr
    intro b _
    rw [cyclicBit_opposite hr0 h h0, cyclicBit_opposite hr0 h h0]
    cases cyclicBit r ws b <;> cases cyclicBit r ws (b + 1) <;> simp
  have hp : c'.pones + c.pones = r * ws.length := by
    rw [e3, e3', ← hl]
    simp only [cyclicBit_opposite hr0 h h0]
    have := List.length_eq_countP_add_countP (fun b => cyclicBit r ws b) (l := List.range (r * ws.length))
    rw [List.length_range] at this
    simp only [Bool.not_eq_true] at this
    have e : (List.range (r * ws.length)).countP (fun b => !cyclicBit r ws b) = (List.range (r * ws.length)).countP (fun b => decide (cyclicBit r ws b = false)) := by
      apply List.countP_congr
      intro b _
      cases cyclicBit r ws b <;> simp
    rw [e]
    omega
  rw [stsRunsTest, stsRunsTest, e1, e1', Res.bind_ok, Res.bind_ok, hx, ← hl]
  have hN : ((ws.length : ℝ) * r) ≠ 0 := by
    have : (0 : ℝ) < ws.length := by exact_mod_cast h0
    have : (0 : ℝ) < r := by exact_mod_cast hr0
    positivity
  have hq : runsPones r ws' c' = 1 - runsPones r ws c := by
    have : (c'.pones : ℝ) + c.pones = ws.length * r := by
      rw [mul_comm]
      exact_mod_cast hp
    rw [runsPones, runsPones, ← hl, eq_sub_iff_add_eq, ← add_div, this, div_self hN]
  rw [hq]
  congr 2
  · ring
  · ring

theorem msbStream_opposite {ws ws' : List UInt} (h : List.Forall₂ (Opposite 32) ws ws') (h0 : 0 < ws.length) (k : Nat) :
    msbStream ws' k = !msbStream ws k := by
  have hl := h.length_eq
  rw [msbStream, msbStream, ← hl]
  have hi : k / 32 % ws.length < ws.length := Nat.mod_lt _ h0
  have hk : k % 32 < 32 := Nat.mod_lt _ (by norm_num)
  rw [List.getD_eq_getElem _ _ hi, List.getD_eq_getElem _ _ (hl ▸ hi), msb, msb]
  have := (List.forall₂_iff_get.1 h).2 _ hi (hl ▸ hi) (31 - k % 32) (by omega)
  rw [List.get_eq_getElem, List.get_eq_getElem] at this
  rw [this]
  simp [hk]

theorem patternCount_opposite {ws ws' : List UInt} (h : List.Forall₂ (Opposite 32) ws ws') (h0 : 0 < ws.length) (m v : Nat) (hv : v < 2 ^ m) :
    patternCount ws' m (2 ^ m - 1 - v) = patternCount ws m v := by
  rw [patternCount, patternCount, ← h.length_eq]
  apply List.countP_congr
  intro t _
  rw [occurs, occurs, List.all_eq_true, List.all_eq_true]
  refine forall_congr' fun i => forall_congr' fun hi => ?_
  rw [List.mem_range] at hi
  rw [msbStream_opposite h h0, show 2 ^ m - 1 - v = 2 ^ m - (v + 1) by omega, Nat.testBit_two_pow_sub_succ hv]
  have : m - 1 - i < m := by omega
  simp [this]

theorem serialPsi_opposite {ws ws' : List UInt} (h : List.Forall₂ (Opposite 32) ws ws') (h0 : 0 < ws.length) (m : Nat) : serialPsi ws' m = serialPsi ws m := by
  rw [serialPsi, serialPsi, ← Finset.sum_range_reflect]
  apply Finset.sum_congr rfl
  intro v hv
  rw [patternCount_opposite h h0 m v (Finset.mem_range.1 hv), ← h.length_eq]

/-- C128: of the 30 p-values of sts_serial all but the first are the same for a source and for its complement; the argument of the first has the
opposite sign. -/
theorem C128_serial (gaussP gammaQ : ℝ → ℝ → ℝ) (ws ws' : List UInt) (h : List.Forall₂ (Opposite 32) ws ws') (h0 : 0 < ws.length) :
    ∃ a σ l, l.length = 29 ∧ stsSerialTest gaussP gammaQ ws = .ok (gaussP a σ :: l) ∧ stsSerialTest gaussP gammaQ ws' = .ok (gaussP (-a) σ :: l) := by
  have hl := h.length_eq
  rw [C84_statistics gaussP gammaQ ws h0, C84_statistics gaussP gammaQ ws' (hl ▸ h0)]
  simp only [serialPsi_opposite h h0, ← hl]
  have e1 := patternCount_opposite h h0 1 1 (by norm_num)
  have e2 : patternCount ws 1 0 + patternCount ws 1 1 = 32 * ws.length := by
    obtain ⟨f, -, f2, f3, f4⟩ := C40_sts_serial ws h0 1 (by norm_num) (by norm_num)
    obtain ⟨a, b, rfl⟩ : ∃ a b, f = [a, b] := by
      match f, f2 with
      | [a, b], _ => exact ⟨a, b, rfl⟩
    have g0 := f4 0 (by norm_num)
    have g1 := f4 1 (by norm_num)
    rw [patternCount, patternCount, ← g0, ← g1, ← f3]
    simp
  have e3 : (patternCount ws' 1 0 : ℝ) = 32 * ws.length - patternCount ws 1 0 := by
    have : patternCount ws' 1 0 + patternCount ws 1 0 = 32 * ws.length := by
      have e : patternCount ws' 1 0 = patternCount ws 1 1 := e1
      omega
    rw [eq_sub_iff_add_eq]
    exact_mod_cast this
  refine ⟨_, _, _, ?_, rfl, ?_⟩
  · simp [List.range'_succ]
  · rw [e3]
    congr 3
    ring

-- A source of 32-bit words and its complement: the tests see the same.
example (src : Src) (n : Nat) : bitstream (fun k => ~~~(src k)) n = bitstream src n ∧ opso (fun k => ~~~(src k)) n = opso src n ∧
    (∀ gaussP, c1sStreamTest gaussP (fun k => ~~~(src k)) 256000 = c1sStreamTest gaussP src 256000) :=
  ⟨(C128_missing src _ n).2.2.2.2 fun k => opposite_not _, (C128_missing src _ n).1 fun k i hi => opposite_not _ i (by omega),
    fun g => (C128_count1s g src _ (fun k => opposite_not _) 256000 (by norm_num)).1⟩

-- The complement of three-bit words.
example : Opposite 3 0b010 0b101 ∧ stsMonobit 3 (fun _ => 0b010) 4 = -4 ∧ stsMonobit 3 (fun _ => 0b101) 4 = 4 := by
  refine ⟨?_, by decide +kernel, by decide +kernel⟩
  unfold Opposite
  decide

end Dh
