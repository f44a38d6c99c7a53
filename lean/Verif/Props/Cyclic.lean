import Mathlib.Combinatorics.Pigeonhole
import Verif.Props.MonobitPower
import Verif.Props.FileInput
/-
C131: what every test finds in a source that repeats itself.
-/
namespace Dh

namespace Spec

/-- The words from place `k` on. -/
def from' (src : Nat → UInt) (k : Nat) : Nat → UInt := fun j => src (k + j)

/-- Where the samples of a run begin, if a sample that finds the words `s` before it draws `d s` of them. -/
def starts (d : (Nat → UInt) → Nat) (src : Nat → UInt) : Nat → Nat
  | 0 => 0
  | i + 1 => starts d src i + d (from' src (starts d src i))

end Spec

open Spec

theorem from'_mod {src : Src} {T : Nat} (hT : ∀ j, src (j + T) = src j) (a : Nat) : from' src a = from' src (a % T) := by
  have h : ∀ q j, src (j + T * q) = src j := by
    intro q
    induction q with
    | zero => intro j; rfl
    | succ q ih => intro j; rw [Nat.mul_succ, ← Nat.add_assoc, hT, ih]
  funext j
  show src (a + j) = src (a % T + j)
  have e : a + j = a % T + j + T * (a / T) := by
    have := Nat.mod_add_div a T
    omega
  rw [e, h]

/-- If the samples of a run begin at `q` places, some place is used by `k` of `m` samples, `k q ≤ m`, and they have the same p-value. -/
theorem cyclic_run (ksTest : Nat) (hks : ksTest ≠ 2) (K : Nat → ℝ → ℝ) (m : Nat) (hm : 2 ≤ m) (hK : ∀ d, 0 ≤ d → ksFinish ksTest m d = .ok (K m d))
    (f : Src → Res ℝ) (src : Src) (st : Nat → Nat) (q : Nat) (hq : 0 < q) (c : Nat → Nat) (hc : ∀ i, c i < q)
    (hcf : ∀ i j, c i = c j → from' src (st i) = from' src (st j)) (ps : List ℝ) (hlen : ps.length = m)
    (hps : ∀ i, ∀ h : i < ps.length, f (from' src (st i)) = .ok ps[i]) (k : Nat) (hk : k * q ≤ m) (hk1 : 1 ≤ k)
    (hbig : 29.2 ≤ m * (((k : ℝ) - 1) / (m + 1)) ^ 2) : ∃ p s, kstest K ps m = .ok (p, s) ∧ p < 1e-6 := by
  obtain ⟨y, hy, hcard⟩ := Finset.exists_le_card_fiber_of_mul_le_card_of_maps_to (s := Finset.range m) (t := Finset.range q) (f := c) (n := k)
    (fun i _ => Finset.mem_range.2 (hc i)) ⟨0, Finset.mem_range.2 hq⟩ (by rw [Finset.card_range, Finset.card_range, Nat.mul_comm]; exact hk)
  have hne : ((Finset.range m).filter fun i => c i = y).Nonempty := Finset.card_pos.1 (by omega)
  obtain ⟨i0, hi0⟩ := hne
  rw [Finset.mem_filter, Finset.mem_range] at hi0
  have hval : ∀ i, ∀ h : i < ps.length, c i = y → ps[i] = ps[i0]'(by rw [hlen]; exact hi0.1) := by
    intro i h hi
    have h1 := hps i h
    have h2 := hps i0 (by omega)
    rw [hcf i i0 (hi.trans hi0.2.symm), h2] at h1
    injection h1 with h1
    exact h1.symm
  have hpl : ps = (List.range m).map fun i => if h : i < ps.length then ps[i] else 0 := by
    refine List.ext_getElem (by simp [hlen]) fun i h1 h2 => ?_
    simp [h1]
  obtain ⟨a, ha⟩ : ∃ a, a = ps[i0]'(by rw [hlen]; exact hi0.1) := ⟨_, rfl⟩
  rw [← ha] at hval
  have hcount : k ≤ ps.countP fun x => decide (a ≤ x ∧ x ≤ a + 0) := by
    have h1 : k ≤ (List.range m).countP fun i => decide (c i = y) := by
      refine hcard.trans (le_of_eq ?_)
      rw [List.countP_eq_length_filter, ← List.toFinset_card_of_nodup (List.nodup_range.filter _)]
      congr 1
      ext i
      simp
    conv_rhs => rw [hpl]
    rw [List.countP_map]
    refine h1.trans (List.countP_mono_left fun i hi hcy => ?_)
    rw [List.mem_range] at hi
    rw [decide_eq_true_iff] at hcy
    simp only [Function.comp_apply, decide_eq_true_iff]
    rw [dif_pos (by omega), hval i (by omega) hcy]
    simp
  have hkr : (1 : ℝ) ≤ k := by exact_mod_cast hk1
  have := C126_crowded ksTest hks K ps (by omega) (by rw [hlen]; exact hK) a 0 le_rfl k hcount (div_nonneg (by linarith) (by positivity))
    (by rw [hlen, sub_zero]; exact hbig)
  rwa [hlen] at this

/-- C131: a generator that always returns the same number fails every test of 33 samples or more, whatever the test does with the numbers and however many it
draws, as long as it gives a p-value at all. -/
theorem C131_stuck (ksTest : Nat) (hks : ksTest ≠ 2) (K : Nat → ℝ → ℝ) (m : Nat) (hm : 33 ≤ m) (hK : ∀ d, 0 ≤ d → ksFinish ksTest m d = .ok (K m d))
    (f : Src → Res ℝ) (d : Src → Nat) (w : UInt) (ps : List ℝ) (hlen : ps.length = m)
    (hps : ∀ i, ∀ h : i < ps.length, f (from' (fun _ => w) (starts d (fun _ => w) i)) = .ok ps[i]) :
    ∃ p s, kstest K ps m = .ok (p, s) ∧ p < 1e-6 := by
  have h : ps = List.replicate m (ps[0]'(by omega)) := by
    rw [List.eq_replicate_iff]
    refine ⟨hlen, fun b hb => ?_⟩
    obtain ⟨i, hi, rfl⟩ := List.getElem_of_mem hb
    have h1 := hps i hi
    have h2 : f (from' (fun _ => w) (starts d (fun _ => w) i)) = .ok (ps[0]'(by omega)) := hps 0 (by omega)
    rw [h2] at h1
    injection h1 with h1
    exact h1.symm
  rw [h]
  exact C126_constant ksTest hks K m hm hK _

/-- C131: a source of period `T` fails every test that is repeated often enough: the samples begin at no more than `T` places. -/
theorem C131_period (ksTest : Nat) (hks : ksTest ≠ 2) (K : Nat → ℝ → ℝ) (m : Nat) (hm : 2 ≤ m) (hK : ∀ d, 0 ≤ d → ksFinish ksTest m d = .ok (K m d))
    (f : Src → Res ℝ) (d : Src → Nat) (src : Src) (T : Nat) (hT0 : 0 < T) (hT : ∀ j, src (j + T) = src j) (ps : List ℝ) (hlen : ps.length = m)
    (hps : ∀ i, ∀ h : i < ps.length, f (from' src (starts d src i)) = .ok ps[i]) (k : Nat) (hk : k * T ≤ m) (hk1 : 1 ≤ k)
    (hbig : 29.2 ≤ m * (((k : ℝ) - 1) / (m + 1)) ^ 2) : ∃ p s, kstest K ps m = .ok (p, s) ∧ p < 1e-6 :=
  cyclic_run ksTest hks K m hm hK f src (starts d src) T hT0 (fun i => starts d src i % T) (fun i => Nat.mod_lt _ hT0)
    (fun i j h => by
      show from' src _ = from' src _
      rw [from'_mod hT (starts d src i), from'_mod hT (starts d src j)]
      exact congrArg _ h) ps hlen hps k hk hk1 hbig

/-- C131: for a test that draws `n` numbers per sample only `q` of the places matter, where `q n` is a multiple of the period. -/
theorem C131_fixed (ksTest : Nat) (hks : ksTest ≠ 2) (K : Nat → ℝ → ℝ) (m : Nat) (hm : 2 ≤ m) (hK : ∀ d, 0 ≤ d → ksFinish ksTest m d = .ok (K m d))
    (f : Src → Res ℝ) (n : Nat) (src : Src) (T : Nat) (hT : ∀ j, src (j + T) = src j) (q : Nat) (hq : 0 < q) (hqn : T ∣ q * n)
    (ps : List ℝ) (hlen : ps.length = m) (hps : ∀ i, ∀ h : i < ps.length, f (from' src (i * n)) = .ok ps[i]) (k : Nat) (hk : k * q ≤ m) (hk1 : 1 ≤ k)
    (hbig : 29.2 ≤ m * (((k : ℝ) - 1) / (m + 1)) ^ 2) : ∃ p s, kstest K ps m = .ok (p, s) ∧ p < 1e-6 := by
  have key : ∀ i, from' src (i * n) = from' src (i % q * n) := by
    intro i
    rw [from'_mod hT (i * n), from'_mod hT (i % q * n)]
    congr 1
    have e : i * n = i % q * n + q * n * (i / q) := by
      conv_lhs => rw [← Nat.mod_add_div i q]
      ring
    obtain ⟨z, hz⟩ := hqn
    rw [e, hz, Nat.mul_assoc, Nat.add_mul_mod_self_left]
  refine cyclic_run ksTest hks K m hm hK f src (fun i => i * n) q hq (fun i => i % q) (fun i => Nat.mod_lt _ hq) (fun i j h => ?_) ps hlen hps k hk hk1 hbig
  show from' src (i * n) = from' src (j * n)
  rw [key i, key j]
  exact congrArg (fun z => from' src (z * n)) h

/-- C131: a binary file (generator 201, whose numbers repeat by C21) fails every test that draws a multiple of its length per sample. -/
theorem C131_file (ksTest : Nat) (hks : ksTest ≠ 2) (K : Nat → ℝ → ℝ) (m : Nat) (hm : 33 ≤ m) (hK : ∀ d, 0 ≤ d → ksFinish ksTest m d = .ok (K m d))
    (f : Src → Res ℝ) (n : Nat) (file : Str) (hn : file.length / 4 ∣ n) (ps : List ℝ) (hlen : ps.length = m)
    (hps : ∀ i, ∀ h : i < ps.length, f (from' (fun k => Spec.word file (k % (file.length / 4))) (i * n)) = .ok ps[i]) :
    ∃ p s, kstest K ps m = .ok (p, s) ∧ p < 1e-6 := by
  refine C131_fixed ksTest hks K m (by omega) hK f n _ (file.length / 4) (fun j => by
    show Spec.word file ((j + _) % _) = Spec.word file (j % _)
    rw [Nat.add_mod_right]) 1 (by norm_num) (by rwa [Nat.one_mul]) ps hlen hps m (by omega) (by omega) ?_
  have hm' : (33 : ℝ) ≤ m := by exact_mod_cast hm
  rw [div_pow, mul_div_assoc', le_div_iff₀ (by positivity)]
  nlinarith [mul_nonneg (by linarith : (0 : ℝ) ≤ m - 33) (by linarith : (0 : ℝ) ≤ m), mul_nonneg (mul_nonneg (by linarith : (0 : ℝ) ≤ m - 33) (by linarith : (0 : ℝ) ≤ m)) (by linarith : (0 : ℝ) ≤ m)]

/-- The hypotheses can be met: with 130 samples of sts_monobit of 100000 words the numbers of a counter modulo 200000 fail. -/
example : ∃ K : Nat → ℝ → ℝ, (∀ d, 0 ≤ d → ksFinish 0 130 d = .ok (K 130 d)) ∧
    ∃ p s, kstest K ((List.range 130).map fun i => monobitTest normalCdf 32 (from' (fun k => BitVec.ofNat 32 (k % 200000)) (i * 100000)) 100000) 130 = .ok (p, s) ∧
      p < 1e-6 := by
  classical
  let K : Nat → ℝ → ℝ := fun n d => if h : 0 < n ∧ 0 ≤ d then (ksFinish_total 0 n h.1 d h.2).choose else 0
  have hK : ∀ d, 0 ≤ d → ksFinish 0 130 d = .ok (K 130 d) := by
    intro d hd
    have e : K 130 d = (ksFinish_total 0 130 (by norm_num) d hd).choose := dif_pos ⟨by norm_num, hd⟩
    rw [e]
    exact (ksFinish_total 0 130 (by norm_num) d hd).choose_spec
  refine ⟨K, hK, C131_fixed 0 (by norm_num) K 130 (by norm_num) hK (fun s => .ok (monobitTest normalCdf 32 s 100000)) 100000
    (fun k => BitVec.ofNat 32 (k % 200000)) 200000 (fun j => ?_) 2 (by norm_num) ⟨1, by norm_num⟩ _ (by simp) (fun i h => ?_) 65 (by norm_num) (by norm_num) (by norm_num)⟩
  · show BitVec.ofNat 32 _ = _
    rw [Nat.add_mod_right]
  · rw [List.getElem_map, List.getElem_range]

end Dh
