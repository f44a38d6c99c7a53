import Mathlib.Tactic.NormNum
import Mathlib.Data.List.GetD
import Verif.Model.XtestStats
import Verif.Proof.CircleRuns
import Verif.Proof.IidTrials
import Verif.Props.Sts
import Verif.Props.SmallTests
/-
C101: the moments of the statistics of sts_monobit, sts_runs and rgb_lagged_sums for uniform draws.
-/
namespace Dh
namespace Spec

/-- The number of places of the cyclic bit string where the next bit differs. -/
def changes (r : Nat) (ws : List UInt) : Nat := (List.range (r * ws.length)).countP fun q => cyclicBit r ws q != cyclicBit r ws (q + 1)

/-- The number of ones among the bits of the words. -/
def onesOf {k r : Nat} (b : Fin k × Fin r → Bool) : Nat := (Finset.univ.filter fun p => b p = true).card

/-- The uniform deviates of a generator with the `L` values `0, …, L-1`, given its first `m` values. -/
def deviates {m L : Nat} (ω : Fin m → Fin L) (i : Nat) : ℚ := if h : i < m then (ω ⟨i, h⟩ : ℕ) / L else 0

end Spec
open Spec

/-! ### Sums of independent trials -/

theorem sum_moments_self {B : Type*} [Fintype B] [Nonempty B] (n : Nat) (f : B → ℝ) :
    (mean fun ω : Fin n → B => ∑ t, f (ω t)) = n * mean f ∧
    (mean fun ω : Fin n → B => (∑ t, f (ω t) - n * mean f) ^ 2) = n * var f := by
  refine ⟨?_, ?_⟩
  · rw [mean_sum, Finset.sum_congr rfl fun t _ => mean_coord t.2 f, Finset.sum_const, Finset.card_univ, Fintype.card_fin, nsmul_eq_mul]
  · set g : B → ℝ := fun x => f x - mean f with hg
    have hg0 : mean g = 0 := by rw [hg, mean_sub, mean_const, sub_self]
    have h1 : ∀ ω : Fin n → B, (∑ t, f (ω t) - n * mean f) ^ 2 = ∑ s, ∑ t, g (ω s) * g (ω t) := by
      intro ω
      rw [← Finset.sum_mul_sum, ← sq]
      congr 1
      rw [hg, Finset.sum_sub_distrib, Finset.sum_const, Finset.card_univ, Fintype.card_fin, nsmul_eq_mul]
    have h2 : ∀ s t : Fin n, (mean fun ω : Fin n → B => g (ω s) * g (ω t)) = if t = s then var f else 0 := by
      intro s t
      split
      · rename_i h
        subst h
        rw [var, ← mean_coord t.2 fun x => (f x - mean f) ^ 2]
        exact mean_congr fun ω => by rw [hg]; ring
      · rename_i h
        have := mean_coord_two (B := B) s.2 t.2 (fun e => h (Fin.ext e).symm) g g
        rw [show (fun ω : Fin n → B => g (ω s) * g (ω t)) = fun ω : Fin n → B => g (ω ⟨s, s.2⟩) * g (ω ⟨t, t.2⟩) from rfl, this, hg0, zero_mul]
    rw [mean_congr h1, mean_sum]
    have h3 : ∀ s : Fin n, (mean fun ω : Fin n → B => ∑ t, g (ω s) * g (ω t)) = var f := by
      intro s
      rw [mean_sum, Finset.sum_congr rfl fun t _ => h2 s t, Finset.sum_ite_eq', if_pos (Finset.mem_univ _)]
    rw [Finset.sum_congr rfl fun s _ => h3 s, Finset.sum_const, Finset.card_univ, Fintype.card_fin, nsmul_eq_mul]

/-- The mean and the variance of a sum of independent trials, which may be some of a longer series. -/
theorem sum_moments {B J : Type*} [Fintype B] [Nonempty B] [Fintype J] [DecidableEq J] (n : Nat) (ι : Fin n → J) (hι : Function.Injective ι) (f : B → ℝ) :
    (mean fun ω : J → B => ∑ t, f (ω (ι t))) = n * mean f ∧
    (mean fun ω : J → B => (∑ t, f (ω (ι t)) - n * mean f) ^ 2) = n * var f := by
  have h := sum_moments_self n f
  exact ⟨(mean_restrict ι hι fun ω => ∑ t, f (ω t)).trans h.1, (mean_restrict ι hι fun ω => (∑ t, f (ω t) - n * mean f) ^ 2).trans h.2⟩

/-! ### sts_monobit -/

theorem countP_range_fin (p : Nat → Bool) (N : Nat) : (List.range N).countP p = (Finset.univ.filter fun i : Fin N => p i = true).card := by
  induction N with
  | zero => rfl
  | succ n ih =>
    rw [List.range_succ, List.countP_append, ih, Finset.card_filter, Finset.card_filter, Fin.sum_univ_castSucc, List.countP_singleton]
    rfl

/-- Bit `q` of the bit stream, as a bit of one of the words. -/
def streamCoord {k r : Nat} (q : Fin (r * k)) : Fin k × Fin r :=
  (⟨q / r, Nat.div_lt_of_lt_mul q.2⟩, ⟨q % r, Nat.mod_lt _ (Nat.pos_of_ne_zero fun h => by subst h; have := q.2; omega)⟩)

theorem streamCoord_inj {k r : Nat} : Function.Injective (streamCoord : Fin (r * k) → Fin k × Fin r) := by
  intro p q h
  simp only [streamCoord, Prod.mk.injEq, Fin.mk.injEq] at h
  refine Fin.ext ?_
  rw [← Nat.div_add_mod (p : ℕ) r, ← Nat.div_add_mod (q : ℕ) r, h.1, h.2]

theorem lsbStream_bitSrc {k r : Nat} (hr : r ≤ 32) (b : Fin k × Fin r → Bool) (q : Fin (r * k)) : lsbStream r (bitSrc b) q = b (streamCoord q) := by
  rw [lsbStream, ← bitSrc_getLsbD hr b (streamCoord q).1 (streamCoord q).2]
  rfl

/-- A fair sign. -/
theorem sign_moments : (mean fun x : Bool => if x = true then (1 : ℝ) else -1) = 0 ∧ (var fun x : Bool => if x = true then (1 : ℝ) else -1) = 1 := by
  have h : (mean fun x : Bool => if x = true then (1 : ℝ) else -1) = 0 := by
    rw [mean, Fintype.sum_bool]; simp
  refine ⟨h, ?_⟩
  rw [var_eq, h, mean, Fintype.sum_bool, Fintype.card_bool]
  norm_num

/-- **C101.** sts_monobit, for independent uniform `r`-bit words: the p-value is the normal distribution with the deviation the square root
of the number of bits at minus the excess of ones over zeros, and this excess has mean 0 and variance the number of bits. -/
theorem C101_monobit (cdf : ℝ → ℝ → ℝ) (r n : Nat) (hr0 : 0 < r) (hr : r ≤ 32) (hn : r * n < 2 ^ 32) :
    (∀ b : Fin n × Fin r → Bool, monobitTest cdf r (bitSrc b) n = cdf (-(2 * onesOf b - r * n)) (Real.sqrt (r * n))) ∧
    (mean fun b : Fin n × Fin r → Bool => 2 * (onesOf b : ℝ) - r * n) = 0 ∧
    (mean fun b : Fin n × Fin r → Bool => (2 * (onesOf b : ℝ) - r * n) ^ 2) = r * n := by
  have hsurj : Function.Bijective (streamCoord : Fin (r * n) → Fin n × Fin r) :=
    (Fintype.bijective_iff_injective_and_card _).2 ⟨streamCoord_inj, by simp [Nat.mul_comm]⟩
  have hsum : ∀ b : Fin n × Fin r → Bool, 2 * (onesOf b : ℝ) - r * n = ∑ q : Fin (r * n), if b (streamCoord q) = true then (1 : ℝ) else -1 := by
    intro b
    rw [Function.Bijective.sum_comp hsurj fun p => if b p = true then (1 : ℝ) else -1]
    have : ∀ p, (if b p = true then (1 : ℝ) else -1) = 2 * (if b p = true then (1 : ℝ) else 0) - 1 := by
      intro p; split <;> norm_num
    rw [Finset.sum_congr rfl fun p _ => this p, Finset.sum_sub_distrib, ← Finset.mul_sum, Finset.sum_boole, Finset.sum_const, Finset.card_univ,
      Fintype.card_prod, Fintype.card_fin, Fintype.card_fin, nsmul_eq_mul, onesOf]
    push_cast; ring
  have hm := sum_moments (J := Fin n × Fin r) (r * n) streamCoord streamCoord_inj fun x : Bool => if x = true then (1 : ℝ) else -1
  rw [sign_moments.1, sign_moments.2, mul_zero, mul_one] at hm
  simp only [sub_zero] at hm
  refine ⟨fun b => ?_, ?_, ?_⟩
  · rw [monobitTest, xtestEval, Nat.mod_eq_of_lt hn, C38_monobit r hr0 hr _ (bitSrc_toNat hr b) n hn]
    have h1 : (List.range (r * n)).countP (fun q => lsbStream r (bitSrc b) q) = onesOf b := by
      rw [countP_range_fin, onesOf]
      simp only [lsbStream_bitSrc hr]
      exact Finset.card_bijective streamCoord hsurj (by simp)
    have h2 : (List.range (r * n)).countP (fun q => lsbStream r (bitSrc b) q) + (List.range (r * n)).countP (fun q => !lsbStream r (bitSrc b) q) = r * n := by
      have := List.length_eq_countP_add_countP (lsbStream r (bitSrc b)) (l := List.range (r * n))
      rw [List.length_range] at this
      have e : (fun k => !lsbStream r (bitSrc b) k) = fun a => decide ¬lsbStream r (bitSrc b) a = true := by
        funext k; cases lsbStream r (bitSrc b) k <;> rfl
      rw [e]; exact this.symm
    rw [h1] at h2 ⊢
    have h3 : ((List.range (r * n)).countP (fun q => !lsbStream r (bitSrc b) q) : ℝ) = r * n - onesOf b := by
      have : (onesOf b : ℝ) + ((List.range (r * n)).countP (fun q => !lsbStream r (bitSrc b) q) : ℝ) = r * n := by exact_mod_cast h2
      linarith
    push_cast
    rw [h3]
    congr 1
    ring
  · rw [mean_congr hsum, hm.1]
  · rw [mean_congr fun b => by rw [hsum b], hm.2]
    push_cast; ring

/-! ### sts_runs -/

/-- Bit `q` of the cyclic bit string, as a bit of one of the words. -/
def cyclicCoord {k r : Nat} (q : Fin (r * k)) : Fin k × Fin r := ((streamCoord q).1.rev, (streamCoord q).2)

theorem cyclicCoord_bij {k r : Nat} : Function.Bijective (cyclicCoord : Fin (r * k) → Fin k × Fin r) := by
  refine (Fintype.bijective_iff_injective_and_card _).2 ⟨fun p q h => streamCoord_inj ?_, by simp [Nat.mul_comm]⟩
  simp only [cyclicCoord, Prod.mk.injEq, Fin.rev_inj] at h
  exact Prod.ext h.1 h.2

/-- The next place on the circle. -/
def nextPlace {N : Nat} (i : Fin N) : Fin N := ⟨(i + 1) % N, Nat.mod_lt _ (by have := i.2; omega)⟩

theorem nextPlace_val {N : Nat} (i : Fin N) : (nextPlace i : ℕ) = if (i : ℕ) + 1 = N then 0 else (i : ℕ) + 1 := by
  have := i.2
  rw [nextPlace]
  split
  · rename_i h; simp [h]
  · rename_i h; exact Nat.mod_eq_of_lt (by omega)

theorem nextPlace_inj {N : Nat} : Function.Injective (nextPlace : Fin N → Fin N) := by
  intro i j h
  have h' := congrArg Fin.val h
  rw [nextPlace_val, nextPlace_val] at h'
  refine Fin.ext ?_
  split at h' <;> split at h' <;> omega

theorem cyclicBit_bitSrc {k r : Nat} (hr : r ≤ 32) (b : Fin k × Fin r → Bool) (q : Fin (r * k)) :
    cyclicBit r ((List.range k).map (bitSrc b)) q = b (cyclicCoord q) := by
  have hk : (q : ℕ) / r < k := Nat.div_lt_of_lt_mul q.2
  rw [cyclicBit, ← bitSrc_getLsbD hr b (cyclicCoord q).1 (cyclicCoord q).2, List.length_map, List.length_range, Nat.mod_eq_of_lt hk]
  congr 1
  rw [List.getD_eq_getElem _ _ (by simpa using hk), List.getElem_reverse]
  simp only [List.length_map, List.length_range, List.getElem_map, List.getElem_range]
  congr 1
  simp only [cyclicCoord, streamCoord, Fin.val_rev]
  omega

theorem cyclicBit_next {k r : Nat} (hr0 : 0 < r) (hr : r ≤ 32) (b : Fin k × Fin r → Bool) (q : Fin (r * k)) :
    cyclicBit r ((List.range k).map (bitSrc b)) (q + 1) = b (cyclicCoord (nextPlace q)) := by
  rw [← cyclicBit_bitSrc hr b, nextPlace_val]
  split
  · rename_i h
    rw [h]
    have := cyclicBit_period r hr0 ((List.range k).map (bitSrc b)) 0
    simp only [List.length_map, List.length_range, Nat.zero_add] at this
    exact this
  · rfl

/-- The places of the ones. -/
def onePlaces {k r : Nat} (b : Fin k × Fin r → Bool) : Finset (Fin (r * k)) := Finset.univ.filter fun q => b (cyclicCoord q) = true

theorem onePlaces_card {k r : Nat} (b : Fin k × Fin r → Bool) : (onePlaces b).card = onesOf b :=
  Finset.card_bijective cyclicCoord cyclicCoord_bij (by simp [onePlaces])

theorem changes_bitSrc {k r : Nat} (hr0 : 0 < r) (hr : r ≤ 32) (b : Fin k × Fin r → Bool) :
    changes r ((List.range k).map (bitSrc b)) = 2 * circleRuns nextPlace (onePlaces b) := by
  rw [← changes_eq nextPlace nextPlace_inj, changes, List.length_map, List.length_range, countP_range_fin]
  congr 1
  refine Finset.filter_congr fun q _ => ?_
  rw [cyclicBit_bitSrc hr, cyclicBit_next hr0 hr]
  simp [onePlaces]

/-- The words with `κ` ones are the sets of `κ` places. -/
theorem sum_ones {k r : Nat} (κ : Nat) (F : Finset (Fin (r * k)) → ℝ) :
    (∑ b : {b : Fin k × Fin r → Bool // onesOf b = κ}, F (onePlaces b.1)) = ∑ S ∈ Finset.univ.powersetCard κ, F S := by
  refine Finset.sum_bij (fun b _ => onePlaces b.1) ?_ ?_ ?_ ?_
  · intro b _
    rw [Finset.mem_powersetCard, onePlaces_card, b.2]
    exact ⟨Finset.subset_univ _, rfl⟩
  · intro b _ c _ h
    refine Subtype.ext (funext fun p => ?_)
    obtain ⟨q, rfl⟩ := cyclicCoord_bij.2 p
    have := congrArg (fun S => q ∈ S) h
    simp only [onePlaces, Finset.mem_filter, Finset.mem_univ, true_and, eq_iff_iff] at this
    exact Bool.eq_iff_iff.2 this
  · intro S hS
    obtain ⟨e, he⟩ : ∃ e : Fin (r * k) ≃ Fin k × Fin r, ∀ q, e q = cyclicCoord q := ⟨Equiv.ofBijective _ cyclicCoord_bij, fun q => rfl⟩
    have h : onePlaces (fun p => decide (e.symm p ∈ S)) = S := by
      ext q
      simp [onePlaces, ← he]
    refine ⟨⟨fun p => decide (e.symm p ∈ S), ?_⟩, Finset.mem_univ _, h⟩
    rw [← onePlaces_card, h]
    exact (Finset.mem_powersetCard.1 hS).2
  · intro b _; rfl

theorem card_ones {k r : Nat} (κ : Nat) : (Fintype.card {b : Fin k × Fin r → Bool // onesOf b = κ} : ℝ) = (r * k).choose κ := by
  have h := sum_ones (k := k) (r := r) κ fun _ => 1
  rw [Finset.sum_const, Finset.sum_const, Finset.card_univ, Finset.card_powersetCard, Finset.card_univ, Fintype.card_fin, nsmul_eq_mul, nsmul_eq_mul,
    mul_one, mul_one] at h
  exact h

/-- **C101.** The p-value of sts_runs, for words with `κ` ones among the `N = r*k` bits: the normal distribution at `2κ(N-κ)/N` minus the
number of changes on the cyclic bit string, with the deviation `2κ(N-κ)/N` over the square root of `N`. -/
theorem C101_runs (cdf : ℝ → ℝ → ℝ) (r k : Nat) (hr0 : 0 < r) (hr : r ≤ 32) (hk : 0 < k) (b : Fin k × Fin r → Bool) :
    stsRunsTest cdf r ((List.range k).map (bitSrc b)) = .ok (cdf
      (2 * onesOf b * (r * k - onesOf b) / (r * k) - changes r ((List.range k).map (bitSrc b)))
      (2 * onesOf b * (r * k - onesOf b) / (r * k) / Real.sqrt (r * k))) := by
  have hw : ∀ x ∈ (List.range k).map (bitSrc b), ∀ i, r ≤ i → x.getLsbD i = false := by
    intro x hx i hi
    obtain ⟨j, -, rfl⟩ := List.mem_map.1 hx
    rw [← BitVec.testBit_toNat]
    exact Nat.testBit_lt_two_pow (lt_of_lt_of_le (bitSrc_toNat hr b j) (Nat.pow_le_pow_right (by norm_num) hi))
  obtain ⟨c, h1, h2, h3⟩ := C39_sts_runs r ((List.range k).map (bitSrc b)) hr0 hr hw
  have hN : (0 : ℝ) < r * k := by positivity
  have hp : c.pones = onesOf b := by
    rw [h3, List.length_map, List.length_range, countP_range_fin, ← onePlaces_card, onePlaces]
    congr 1
    exact Finset.filter_congr fun q _ => by rw [cyclicBit_bitSrc hr]
  rw [stsRunsTest, h1, Res.bind_ok, xtestEval, runsPones, h2, hp]
  rw [List.length_map, List.length_range]
  have hs : Real.sqrt (r * k) ≠ 0 := (Real.sqrt_pos.2 hN).ne'
  have hss : Real.sqrt (r * k) * Real.sqrt (r * k) = r * k := Real.mul_self_sqrt hN.le
  have hr' : (r : ℝ) ≠ 0 := by exact_mod_cast hr0.ne'
  have hk' : (k : ℝ) ≠ 0 := by exact_mod_cast hk.ne'
  rw [Res.pure_eq]
  congr 2
  · rw [changes, List.length_map, List.length_range]
    congr 1
    push_cast
    field_simp
  · push_cast
    rw [eq_div_iff hs]
    have : 2 * Real.sqrt (r * k) * (onesOf b / (k * r)) * (1 - onesOf b / (k * r)) * Real.sqrt (r * k) =
      2 * (Real.sqrt (r * k) * Real.sqrt (r * k)) * (onesOf b / (k * r)) * (1 - onesOf b / (k * r)) := by ring
    rw [this, hss]
    field_simp

/-- **C101.** sts_runs, among the words with `κ` ones (all equally likely): the mean of the number of changes is `2κ(N-κ)/(N-1)`, and its
variance `4κ(κ-1)(N-κ)(N-κ-1)/((N-1)²(N-2))`. -/
theorem C101_runs_moments (r k κ : Nat) (hr0 : 0 < r) (hr : r ≤ 32) (hN : 4 ≤ r * k) (hκ : κ ≤ r * k) :
    (mean fun b : {b : Fin k × Fin r → Bool // onesOf b = κ} => (changes r ((List.range k).map (bitSrc b.1)) : ℝ)) =
      2 * κ * (r * k - κ) / (r * k - 1) ∧
    (var fun b : {b : Fin k × Fin r → Bool // onesOf b = κ} => (changes r ((List.range k).map (bitSrc b.1)) : ℝ)) =
      4 * κ * (κ - 1) * (r * k - κ) * (r * k - κ - 1) / ((r * k - 1) ^ 2 * (r * k - 2)) := by
  have hc : ((r * k).choose κ : ℝ) ≠ 0 := by exact_mod_cast (Nat.choose_pos hκ).ne'
  have hne : Nonempty {b : Fin k × Fin r → Bool // onesOf b = κ} := by
    rw [← Fintype.card_pos_iff]
    have : (Fintype.card {b : Fin k × Fin r → Bool // onesOf b = κ} : ℝ) ≠ 0 := by rw [card_ones]; exact hc
    exact Nat.pos_of_ne_zero (by exact_mod_cast this)
  have hn1 : ∀ i : Fin (r * k), nextPlace i ≠ i := by
    intro i h
    have := congrArg Fin.val h
    rw [nextPlace_val] at this
    split at this <;> omega
  have hn2 : ∀ i : Fin (r * k), nextPlace (nextPlace i) ≠ i := by
    intro i h
    have := congrArg Fin.val h
    rw [nextPlace_val, nextPlace_val] at this
    split at this <;> split at this <;> omega
  have hR : (4 : ℝ) ≤ r * k := by exact_mod_cast hN
  have e1 : (r * k : ℝ) - 1 ≠ 0 := by linarith
  have e2 : (r * k : ℝ) - 2 ≠ 0 := by linarith
  have hm : (mean fun b : {b : Fin k × Fin r → Bool // onesOf b = κ} => (changes r ((List.range k).map (bitSrc b.1)) : ℝ)) =
      2 * κ * (r * k - κ) / (r * k - 1) := by
    rw [mean, card_ones, Finset.sum_congr rfl fun b _ => by rw [changes_bitSrc hr0 hr]]
    rw [sum_ones κ fun S => ((2 * circleRuns nextPlace S : ℕ) : ℝ)]
    push_cast
    rw [← Finset.mul_sum, sum_circleRuns nextPlace hn1 (by omega) hκ]
    push_cast
    field_simp
  refine ⟨hm, ?_⟩
  rw [var_eq, hm, mean, card_ones, Finset.sum_congr rfl fun b _ => by rw [changes_bitSrc hr0 hr]]
  rw [sum_ones κ fun S => ((2 * circleRuns nextPlace S : ℕ) : ℝ) ^ 2]
  push_cast
  simp only [mul_pow]
  rw [← Finset.mul_sum, sum_circleRuns_sq nextPlace nextPlace_inj hn1 hn2 hN hκ]
  push_cast
  field_simp
  ring

/-- **C101.** The standardised statistic of sts_runs has the mean `-√N/(N-1)` whatever the number of ones, and not 0. -/
theorem C101_runs_bias (r k κ : Nat) (hr0 : 0 < r) (hr : r ≤ 32) (hN : 4 ≤ r * k) (h0 : 0 < κ) (hκ : κ < r * k) :
    (mean fun b : {b : Fin k × Fin r → Bool // onesOf b = κ} =>
      (2 * (onesOf b.1 : ℝ) * (r * k - onesOf b.1) / (r * k) - changes r ((List.range k).map (bitSrc b.1))) /
        (2 * onesOf b.1 * (r * k - onesOf b.1) / (r * k) / Real.sqrt (r * k))) = -(Real.sqrt (r * k) / (r * k - 1)) := by
  have hc : ((r * k).choose κ : ℝ) ≠ 0 := by exact_mod_cast (Nat.choose_pos hκ.le).ne'
  have hne : Nonempty {b : Fin k × Fin r → Bool // onesOf b = κ} := by
    rw [← Fintype.card_pos_iff]
    have : (Fintype.card {b : Fin k × Fin r → Bool // onesOf b = κ} : ℝ) ≠ 0 := by rw [card_ones]; exact hc
    exact Nat.pos_of_ne_zero (by exact_mod_cast this)
  have hR : (4 : ℝ) ≤ r * k := by exact_mod_cast hN
  have hRp : (0 : ℝ) < r * k := by linarith
  have e1 : (r * k : ℝ) - 1 ≠ 0 := by linarith
  have hk0 : (κ : ℝ) ≠ 0 := by exact_mod_cast h0.ne'
  have hk1 : (r * k : ℝ) - κ ≠ 0 := by
    have : (κ : ℝ) < r * k := by exact_mod_cast hκ
    linarith
  have hs : Real.sqrt (r * k) ≠ 0 := (Real.sqrt_pos.2 hRp).ne'
  have hb : ∀ b : {b : Fin k × Fin r → Bool // onesOf b = κ},
      (2 * (onesOf b.1 : ℝ) * (r * k - onesOf b.1) / (r * k) - changes r ((List.range k).map (bitSrc b.1))) /
        (2 * onesOf b.1 * (r * k - onesOf b.1) / (r * k) / Real.sqrt (r * k)) =
      (2 * (κ : ℝ) * (r * k - κ) / (r * k) - changes r ((List.range k).map (bitSrc b.1))) / (2 * κ * (r * k - κ) / (r * k) / Real.sqrt (r * k)) :=
    fun b => by rw [b.2]
  rw [mean_congr hb, mean_div, mean_sub, mean_const, (C101_runs_moments r k κ hr0 hr hN hκ.le).1]
  have hN0 : (r * k : ℝ) ≠ 0 := hRp.ne'
  generalize (r * k : ℝ) = M at *
  field_simp
  ring

/-! ### rgb_lagged_sums -/

theorem list_sum_fin (f : Nat → ℚ) (n : Nat) : ((List.range n).map f).sum = ∑ t : Fin n, f t := by
  induction n with
  | zero => simp
  | succ n ih => rw [List.range_succ, List.map_append, List.sum_append, ih, Fin.sum_univ_castSucc]; simp

theorem deviate_moments (L : Nat) (hL : 0 < L) :
    (mean fun v : Fin L => ((v : ℕ) : ℝ) / L) = (L - 1) / (2 * L) ∧ (var fun v : Fin L => ((v : ℕ) : ℝ) / L) = (L ^ 2 - 1) / (12 * L ^ 2) := by
  have hne : Nonempty (Fin L) := ⟨⟨0, hL⟩⟩
  have hL0 : (L : ℝ) ≠ 0 := by exact_mod_cast hL.ne'
  have s1 : ∀ M : Nat, ∑ v ∈ Finset.range M, (v : ℝ) = M * (M - 1) / 2 := by
    intro M
    induction M with
    | zero => simp
    | succ M ih => rw [Finset.sum_range_succ, ih]; push_cast; ring
  have s2 : ∀ M : Nat, ∑ v ∈ Finset.range M, (v : ℝ) ^ 2 = M * (M - 1) * (2 * M - 1) / 6 := by
    intro M
    induction M with
    | zero => simp
    | succ M ih => rw [Finset.sum_range_succ, ih]; push_cast; ring
  have hm : (mean fun v : Fin L => ((v : ℕ) : ℝ) / L) = (L - 1) / (2 * L) := by
    rw [mean_div, mean, Fintype.card_fin, Fin.sum_univ_eq_sum_range fun v => (v : ℝ), s1]
    field_simp
  refine ⟨hm, ?_⟩
  rw [var_eq, hm]
  simp only [div_pow]
  rw [mean_div, mean, Fintype.card_fin, Fin.sum_univ_eq_sum_range fun v => (v : ℝ) ^ 2, s2]
  field_simp
  ring

/-- **C101.** rgb_lagged_sums, for independent uniform draws among `L` values: the p-value is the normal distribution at `n/2` minus the sum,
with the deviation `√(n/12)`; the mean of the sum is `n/2 - n/(2L)` and its variance `n(L²-1)/(12L²)`. -/
theorem C101_lagged (cdf : ℝ → ℝ → ℝ) (L lag n : Nat) (hL : 0 < L) :
    (∀ ω : Fin (n * (lag + 1)) → Fin L, laggedTest cdf (deviates ω) lag n =
      cdf (n / 2 - ((laggedSums (deviates ω) lag n).1 : ℚ)) (Real.sqrt (n / 12))) ∧
    (mean fun ω : Fin (n * (lag + 1)) → Fin L => (((laggedSums (deviates ω) lag n).1 : ℚ) : ℝ)) = n / 2 - n / (2 * L) ∧
    (var fun ω : Fin (n * (lag + 1)) → Fin L => (((laggedSums (deviates ω) lag n).1 : ℚ) : ℝ)) = n * (L ^ 2 - 1) / (12 * L ^ 2) := by
  have hne : Nonempty (Fin L) := ⟨⟨0, hL⟩⟩
  have hL0 : (L : ℝ) ≠ 0 := by exact_mod_cast hL.ne'
  have hlt : ∀ t : Fin n, ((t : ℕ) + 1) * lag + t < n * (lag + 1) := by
    intro t
    have h1 : ((t : ℕ) + 1) * lag ≤ n * lag := Nat.mul_le_mul_right _ t.2
    have := t.2
    rw [Nat.mul_add]; omega
  let ι : Fin n → Fin (n * (lag + 1)) := fun t => ⟨((t : ℕ) + 1) * lag + t, hlt t⟩
  have hι : Function.Injective ι := by
    intro s t h
    have h' : ((s : ℕ) + 1) * lag + s = ((t : ℕ) + 1) * lag + t := congrArg Fin.val h
    refine Fin.ext ?_
    rcases Nat.lt_trichotomy (s : ℕ) t with h1 | h1 | h1
    · have := Nat.mul_le_mul_right lag (Nat.succ_le_succ h1.le)
      simp only [Nat.succ_eq_add_one] at this
      omega
    · exact h1
    · have := Nat.mul_le_mul_right lag (Nat.succ_le_succ h1.le)
      simp only [Nat.succ_eq_add_one] at this
      omega
  have hsum : ∀ ω : Fin (n * (lag + 1)) → Fin L, (((laggedSums (deviates ω) lag n).1 : ℚ) : ℝ) = ∑ t, ((ω (ι t) : ℕ) : ℝ) / L := by
    intro ω
    rw [C56_lagged_sums]
    simp only
    rw [list_sum_fin]
    push_cast
    refine Finset.sum_congr rfl fun t _ => ?_
    rw [deviates, dif_pos (hlt t)]
    push_cast
    rfl
  have hm := sum_moments (J := Fin (n * (lag + 1))) n ι hι fun v : Fin L => ((v : ℕ) : ℝ) / L
  rw [(deviate_moments L hL).1, (deviate_moments L hL).2] at hm
  have hmean : (mean fun ω : Fin (n * (lag + 1)) → Fin L => (((laggedSums (deviates ω) lag n).1 : ℚ) : ℝ)) = n * ((L - 1) / (2 * L)) := by
    rw [mean_congr hsum, hm.1]
  refine ⟨fun ω => ?_, ?_, ?_⟩
  · rw [laggedTest, xtestEval]
    congr 2
    norm_num
    ring
  · rw [hmean]; field_simp
  · rw [var, hmean, mean_congr fun ω => by rw [hsum ω], hm.2]
    field_simp

/-- **C101.** The standardised statistic of rgb_lagged_sums has the mean `√(3n)/L`. -/
theorem C101_lagged_bias (L lag n : Nat) (hL : 0 < L) (hn : 0 < n) :
    (mean fun ω : Fin (n * (lag + 1)) → Fin L => (n / 2 - (((laggedSums (deviates ω) lag n).1 : ℚ) : ℝ)) / Real.sqrt (n / 12)) =
      Real.sqrt (3 * n) / L := by
  have hne : Nonempty (Fin L) := ⟨⟨0, hL⟩⟩
  have hL0 : (L : ℝ) ≠ 0 := by exact_mod_cast hL.ne'
  have hn0 : (0 : ℝ) < n := by exact_mod_cast hn
  rw [mean_div, mean_sub, mean_const, (C101_lagged (fun _ _ => 0) L lag n hL).2.1]
  have hs : Real.sqrt (n / 12) ≠ 0 := (Real.sqrt_pos.2 (by positivity)).ne'
  have h3 : Real.sqrt (3 * n) = 6 * Real.sqrt (n / 12) := by
    rw [show (3 * n : ℝ) = 6 ^ 2 * (n / 12) from by ring, Real.sqrt_mul (by norm_num), Real.sqrt_sq (by norm_num)]
  have hss : Real.sqrt (n / 12) * Real.sqrt (n / 12) = n / 12 := Real.mul_self_sqrt (by positivity)
  rw [h3, div_eq_div_iff hs hL0]
  have : 6 * Real.sqrt (n / 12) * Real.sqrt (n / 12) = n / 2 := by rw [mul_assoc, hss]; ring
  rw [this]
  field_simp
  ring

/-! ### Examples -/

-- 0111 on a circle: two changes; among the words of four bits with two ones the changes have the mean 8/3 and not 2.
example : changes 4 [0b0111#32] = 2 := by decide +kernel
example : changes 4 [0b0101#32] = 4 := by decide +kernel

example : (mean fun b : {b : Fin 1 × Fin 4 → Bool // onesOf b = 2} => (changes 4 ((List.range 1).map (bitSrc b.1)) : ℝ)) = 8 / 3 := by
  rw [(C101_runs_moments 4 1 2 (by norm_num) (by norm_num) (by norm_num) (by norm_num)).1]
  norm_num

-- sts_runs at its default, 100000 words of 32 bits: off by less than 1/1788 of a standard deviation.
example : (mean fun b : {b : Fin 100000 × Fin 32 → Bool // onesOf b = 1600000} =>
      (2 * (onesOf b.1 : ℝ) * ((32 : ℕ) * (100000 : ℕ) - onesOf b.1) / ((32 : ℕ) * (100000 : ℕ)) - changes 32 ((List.range 100000).map (bitSrc b.1))) /
        (2 * onesOf b.1 * ((32 : ℕ) * (100000 : ℕ) - onesOf b.1) / ((32 : ℕ) * (100000 : ℕ)) / Real.sqrt ((32 : ℕ) * (100000 : ℕ)))) =
      -(Real.sqrt ((32 : ℕ) * (100000 : ℕ)) / ((32 : ℕ) * (100000 : ℕ) - 1)) :=
  C101_runs_bias 32 100000 1600000 (by norm_num) (by norm_num) (by norm_num) (by norm_num) (by norm_num)

-- A perfect generator of bytes fails rgb_lagged_sums at its default of a million samples: more than six standard deviations off.
example (lag : Nat) : 6 < mean fun ω : Fin (1000000 * (lag + 1)) → Fin 256 =>
    ((1000000 : ℕ) / 2 - (((laggedSums (deviates ω) lag 1000000).1 : ℚ) : ℝ)) / Real.sqrt ((1000000 : ℕ) / 12) := by
  rw [C101_lagged_bias 256 lag 1000000 (by norm_num) (by norm_num), lt_div_iff₀ (by norm_num)]
  exact Real.lt_sqrt_of_sq_lt (by norm_num)

example : (mean fun b : Fin 2 × Fin 3 → Bool => (2 * (onesOf b : ℝ) - (3 : ℕ) * (2 : ℕ)) ^ 2) = 6 := by
  rw [(C101_monobit (fun _ _ => 0) 3 2 (by norm_num) (by norm_num) (by norm_num)).2.2]
  norm_num

end Dh
