import Verif.Proof.IidTrials
import Verif.Props.FillTreeLaw
import Verif.Props.RandBits
import Mathlib.Logic.Equiv.Prod
/-
Trials that use separate blocks of random bits.
-/
namespace Dh
open Spec

/-- Trials keep their law under a map that keeps means. -/
theorem pairTrials_map {Ω Ω' : Type*} [Fintype Ω] [Fintype Ω'] {n K : Nat} {X : Nat → Ω' → Nat} {p : Nat → ℝ} (h : PairTrials n K X p)
    (φ : Ω → Ω') (hφ : ∀ F : Ω' → ℝ, (mean fun ω => F (φ ω)) = mean F) : PairTrials n K (fun t ω => X t (φ ω)) p :=
  ⟨fun t ht ω => h.range t ht (φ ω), fun t ht c hc => (hφ fun ω => if X t ω = c then (1 : ℝ) else 0).trans (h.one t ht c hc),
    fun s hs t ht hst c hc d hd => (hφ fun ω => if X s ω = c ∧ X t ω = d then (1 : ℝ) else 0).trans (h.two s hs t ht hst c hc d hd)⟩

/-- Trials may be changed where they are not used. -/
theorem pairTrials_congr {Ω : Type*} [Fintype Ω] {n K : Nat} {X Y : Nat → Ω → Nat} {p : Nat → ℝ} (h : PairTrials n K X p)
    (e : ∀ t < n, ∀ ω, Y t ω = X t ω) : PairTrials n K Y p :=
  ⟨fun t ht ω => by rw [e t ht]; exact h.range t ht ω, fun t ht c hc => by simp only [e t ht]; exact h.one t ht c hc,
    fun s hs t ht hst c hc d hd => by simp only [e t ht, e s hs]; exact h.two s hs t ht hst c hc d hd⟩

/-- The trials `f` of separate blocks of random bits. -/
theorem block_trials {I : Type*} [Fintype I] [DecidableEq I] (n K B : Nat) (f : (I → Bool) → Nat) (hf : ∀ b, f b < K) (ι : Nat → I → Nat)
    (hB : ∀ t < n, ∀ i, ι t i < B) (hι : ∀ s < n, ∀ t < n, ∀ i j, ι s i = ι t j → s = t ∧ i = j) :
    PairTrials n K (fun t (β : Fin B → Bool) => f fun i => padSeq false β (ι t i)) fun c => mean fun b => if f b = c then (1 : ℝ) else 0 := by
  have h := pairTrials_map (iid_trials n K f hf) (fun (β : Fin B → Bool) (t : Fin n) (i : I) => β ⟨ι t i, hB t t.2 i⟩) fun F => by
    have h1 := mean_restrict (A := Bool) (I := Fin n × I) (J := Fin B) (fun p => ⟨ι p.1 p.2, hB p.1 p.1.2 p.2⟩) (fun a b e => by
      obtain ⟨h1, h2⟩ := hι a.1 a.1.2 b.1 b.1.2 a.2 b.2 (congrArg Fin.val e)
      exact Prod.ext (Fin.ext h1) h2) (fun b => F fun t i => b (t, i))
    rw [h1]
    exact mean_equiv (Equiv.curry (Fin n) I Bool) F
  refine pairTrials_congr h fun t ht β => ?_
  rw [dif_pos ht]
  congr 1
  funext i
  rw [padSeq, dif_pos (hB t ht i)]

/-! ### The order of the bits -/

/-- The place in the stream with the lowest bits first, of bit `k` of the stream with the highest bits first. -/
def flipBit (r k : Nat) : Nat := r * (k / r) + (r - 1 - k % r)

theorem flipBit_flipBit {r : Nat} (hr : 0 < r) (k : Nat) : flipBit r (flipBit r k) = k := by
  have h := Nat.mod_lt k hr
  have h1 : (r * (k / r) + (r - 1 - k % r)) / r = k / r := by
    rw [Nat.mul_add_div hr, Nat.div_eq_of_lt (a := r - 1 - k % r) (by omega), Nat.add_zero]
  have h2 : (r * (k / r) + (r - 1 - k % r)) % r = r - 1 - k % r := by
    rw [Nat.mul_add_mod, Nat.mod_eq_of_lt (by omega)]
  rw [flipBit, flipBit, h1, h2]
  have := Nat.div_add_mod k r
  omega

theorem flipBit_inj {r : Nat} (hr : 0 < r) {j k : Nat} (h : flipBit r j = flipBit r k) : j = k := by
  rw [← flipBit_flipBit hr j, h, flipBit_flipBit hr]

theorem flipBit_lt {r m k : Nat} (hr : 0 < r) (h : k < m * r) : flipBit r k < m * r := by
  have h1 : k / r < m := Nat.div_lt_of_lt_mul (by rw [Nat.mul_comm]; exact h)
  have h2 : r * (k / r + 1) ≤ r * m := Nat.mul_le_mul_left r h1
  rw [Nat.mul_succ] at h2
  rw [flipBit, Nat.mul_comm m r]
  omega

theorem msbCat_flip (r : Nat) (src : Src) (hr : 0 < r) (k : Nat) : msbCat r src k = lsbStream r src (flipBit r k) := by
  have h := Nat.mod_lt k hr
  rw [msbCat, lsbStream, flipBit, Nat.mul_add_div hr, Nat.div_eq_of_lt (a := r - 1 - k % r) (by omega), Nat.add_zero, Nat.mul_add_mod,
    Nat.mod_eq_of_lt (a := r - 1 - k % r) (by omega)]

theorem wordSrc_width {m r : Nat} (ω : Fin m → Fin (2 ^ r)) : Width r (wordSrc ω) := by
  intro k i hi
  rw [wordSrc]
  split
  · rw [BitVec.getLsbD_ofNat, Nat.testBit_lt_two_pow (lt_of_lt_of_le (ω _).2 (Nat.pow_le_pow_right (by norm_num) hi)), Bool.and_false]
  · simp

/-- The trials `f` of separate blocks of the bits of random words. -/
theorem word_trials {I : Type*} [Fintype I] [DecidableEq I] (n K r m : Nat) (hr : 0 < r) (h32 : r ≤ 32) (f : (I → Bool) → Nat) (hf : ∀ b, f b < K)
    (ι : Nat → I → Nat) (hB : ∀ t < n, ∀ i, ι t i < m * r) (hι : ∀ s < n, ∀ t < n, ∀ i j, ι s i = ι t j → s = t ∧ i = j) :
    PairTrials n K (fun t (ω : Fin m → Fin (2 ^ r)) => f fun i => msbCat r (wordSrc ω) (ι t i)) fun c => mean fun b => if f b = c then (1 : ℝ) else 0 := by
  have h := pairTrials_map (block_trials n K (m * r) f hf (fun t i => flipBit r (ι t i)) (fun t ht i => flipBit_lt hr (hB t ht i))
    (fun s hs t ht i j e => hι s hs t ht i j (flipBit_inj hr e))) (Equiv.ofBijective _ (wordBits_bijective m r hr)) fun F => mean_equiv _ F
  refine pairTrials_congr h fun t ht ω => ?_
  congr 1
  funext i
  rw [msbCat_flip r _ hr, lsbStream_wordSrc m r hr h32]
  rfl

end Dh
