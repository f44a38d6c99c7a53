import Mathlib.Tactic.NormNum
import Mathlib.Data.List.GetD
import Verif.Model.SerialStat
import Verif.Proof.WindowChi
import Verif.Props.Sts
import Verif.Props.MinDist
/-
C84: the statistics of sts_serial and their mean for uniform draws.
-/
namespace Dh
namespace Spec

/-- How often the pattern `v` of `m` bits stands in the cyclic bit string. -/
def patternCount (ws : List UInt) (m v : Nat) : Nat := (List.range (32 * ws.length)).countP (fun t => occurs ws m v t)

/-- Pearson's statistic of the `2^m` patterns of `m` bits, all of which are expected equally often. -/
noncomputable def serialPsi (ws : List UInt) (m : Nat) : ℝ :=
  ∑ v ∈ Finset.range (2 ^ m), ((patternCount ws m v : ℝ) - (32 * ws.length : ℝ) / 2 ^ m) ^ 2 / ((32 * ws.length : ℝ) / 2 ^ m)

end Spec
open Spec

theorem psi2Loop_spec (f : List Nat) (K : Nat) (hK : f.length = K) : ∀ (todo i : Nat) (s : ℝ), i + todo = K →
    psi2Loop f todo i s = .ok (s + ∑ v ∈ Finset.Ico i K, (f.getD v 0 : ℝ) ^ 2)
  | 0, i, s, h => by rw [psi2Loop, show i = K from by omega]; simp
  | todo + 1, i, s, h => by
    rw [psi2Loop, rd_dflt 0 (by omega), Res.bind_ok, psi2Loop_spec f K hK todo (i + 1) _ (by omega), Finset.sum_eq_sum_Ico_succ_bot (show i < K by omega)]
    congr 1
    ring

theorem serialPsi_eq (ws : List UInt) (h0 : 0 < ws.length) (m : Nat) (f : List Nat) (hs : f.sum = 32 * ws.length) (hl : f.length = 2 ^ m)
    (hf : ∀ v < 2 ^ m, f.getD v 0 = patternCount ws m v) :
    2 ^ m * (∑ v ∈ Finset.range (2 ^ m), (f.getD v 0 : ℝ) ^ 2) / (32 * ws.length : Nat) - (32 * ws.length : Nat) = serialPsi ws m := by
  have hn : ((32 * ws.length : Nat) : ℝ) ≠ 0 := by exact_mod_cast (by omega : 32 * ws.length ≠ 0)
  have hsum : ∑ v ∈ Finset.range (2 ^ m), (patternCount ws m v : ℝ) = (32 * ws.length : Nat) := by
    rw [← hs]
    have : f.sum = ∑ v ∈ Finset.range (2 ^ m), f.getD v 0 := by
      rw [← hl, Finset.sum_range, ← List.sum_ofFn]
      congr 1
      apply List.ext_getElem
      · simp
      · intro i h1 h2; simp [h1]
    rw [this, Nat.cast_sum]
    exact Finset.sum_congr rfl fun v hv => by rw [hf v (Finset.mem_range.1 hv)]
  have h2 : ((2 : ℝ) ^ m) ≠ 0 := by positivity
  rw [Finset.sum_congr rfl fun v hv => by rw [hf v (Finset.mem_range.1 hv)]]
  have h1 : ∀ v ∈ Finset.range (2 ^ m), ((patternCount ws m v : ℝ) - (32 * ws.length : ℝ) / 2 ^ m) ^ 2 / ((32 * ws.length : ℝ) / 2 ^ m) =
      2 ^ m / (32 * ws.length : Nat) * (patternCount ws m v : ℝ) ^ 2 - 2 * patternCount ws m v + (32 * ws.length : Nat) / 2 ^ m := by
    intro v _
    push_cast at hn ⊢
    field_simp
    ring
  rw [serialPsi, Finset.sum_congr rfl h1, Finset.sum_add_distrib, Finset.sum_sub_distrib, ← Finset.mul_sum, ← Finset.mul_sum, hsum,
    Finset.sum_const, Finset.card_range, nsmul_eq_mul, Nat.cast_pow, Nat.cast_ofNat]
  field_simp
  ring

theorem psi2All_spec (ws : List UInt) (h0 : 0 < ws.length) : ∀ (todo m : Nat) (psi : List ℝ), 0 < m → m + todo ≤ 17 →
    psi = (List.range m).map (fun j => if j = 0 then 0 else serialPsi ws j) →
    psi2All ws todo m psi = .ok ((List.range (m + todo)).map (fun j => if j = 0 then 0 else serialPsi ws j))
  | 0, m, psi, _, _, h => by rw [psi2All, h]; rfl
  | todo + 1, m, psi, hm, hb, h => by
    obtain ⟨f, h1, h2, h3, h4⟩ := C40_sts_serial ws h0 m hm (by omega)
    rw [psi2All, h1, Res.bind_ok, psi2Loop_spec f (2 ^ m) h2 (2 ^ m) 0 0 (by omega), Res.bind_ok, zero_add, ← Finset.range_eq_Ico,
      serialPsi_eq ws h0 m f h3 h2 h4, psi2All_spec ws h0 todo (m + 1) _ (by omega) (by omega)]
    · rw [show m + 1 + todo = m + (todo + 1) from by omega]
    · rw [h, List.range_succ, List.map_append, List.map_singleton, if_neg (by omega : m ≠ 0)]

/-- The p-values of width `m`. -/
noncomputable def pvalsOf (gammaQ : ℝ → ℝ → ℝ) (psi : Nat → ℝ) (m : Nat) : List ℝ :=
  gammaQ (2 ^ (m - 2)) ((psi m - psi (m - 1)) / 2) ::
    if 2 < m then [gammaQ (2 ^ (m - 3)) ((psi m - 2 * psi (m - 1) + psi (m - 2)) / 2)] else []

theorem serialPvals_spec (gammaQ : ℝ → ℝ → ℝ) (psi : Nat → ℝ) (K : Nat) : ∀ (todo m : Nat) (out : List ℝ), 2 ≤ m → m + todo = K →
    serialPvals gammaQ ((List.range K).map psi) todo m out = .ok (out ++ (List.range' m todo).flatMap (pvalsOf gammaQ psi))
  | 0, m, out, _, _ => by simp [serialPvals]
  | todo + 1, m, out, hm, hK => by
    have h : ∀ j < K, rd ((List.range K).map psi) j = .ok (psi j) := by
      intro j hj
      rw [rd_dflt 0 (by simpa using hj)]
      simp [List.getD, hj]
    rw [serialPvals, h m (by omega), Res.bind_ok, h (m - 1) (by omega), Res.bind_ok, h (m - 2) (by omega), Res.bind_ok]
    simp only
    rw [serialPvals_spec gammaQ psi K todo (m + 1) _ (by omega) (by omega), List.range'_succ, List.flatMap_cons, pvalsOf]
    by_cases h2 : 2 < m
    · rw [if_pos h2, if_pos h2]; simp
    · rw [if_neg h2, if_neg h2]; simp

/-- **C84.** The 30 p-values of sts_serial: the number of zeros minus the number of ones as a normal variable with the variance the number
of bits; for each width `m` from 2 to 16 the increase of Pearson's statistic `serialPsi` from width `m-1` to `m` as a chi-square
variable with `2^(m-1)` degrees of freedom; and for each width from 3 on the second difference with `2^(m-2)` degrees of freedom. -/
theorem C84_statistics (gaussP gammaQ : ℝ → ℝ → ℝ) (ws : List UInt) (h0 : 0 < ws.length) :
    stsSerialTest gaussP gammaQ ws = .ok (gaussP (2 * patternCount ws 1 0 - 32 * ws.length) (Real.sqrt (32 * ws.length)) ::
      (List.range' 2 15).flatMap fun m =>
        gammaQ (2 ^ (m - 1) / 2) ((serialPsi ws m - serialPsi ws (m - 1)) / 2) ::
          if 2 < m then [gammaQ (2 ^ (m - 2) / 2) ((serialPsi ws m - 2 * serialPsi ws (m - 1) + serialPsi ws (m - 2)) / 2)] else []) := by
  obtain ⟨f, h1, h2, h3, h4⟩ := C40_sts_serial ws h0 1 (by omega) (by omega)
  rw [stsSerialTest, psi2All_spec ws h0 16 1 [0] (by omega) (by omega) (by simp), Res.bind_ok, h1, Res.bind_ok, rd_dflt 0 (by omega), Res.bind_ok]
  simp only
  rw [serialPvals_spec gammaQ _ 17 15 2 _ (by omega) (by omega), h4 0 (by norm_num)]
  simp only [List.cons_append, List.nil_append]
  congr 2
  · rw [patternCount]; push_cast; rfl
  · refine List.flatMap_congr fun m hm => ?_
    rw [List.mem_range'_1] at hm
    rw [pvalsOf, if_neg (by omega : ¬m = 0), if_neg (by omega : ¬m - 1 = 0),
      show (2 : ℝ) ^ (m - 1) / 2 = 2 ^ (m - 2) from by rw [show m - 1 = (m - 2) + 1 from by omega, pow_succ]; ring]
    by_cases h : 2 < m
    · rw [if_pos h, if_pos h, if_neg (by omega : ¬m - 2 = 0),
        show (2 : ℝ) ^ (m - 2) / 2 = 2 ^ (m - 3) from by rw [show m - 2 = (m - 3) + 1 from by omega, pow_succ]; ring]
    · rw [if_neg h, if_neg h]

/-! ### The means for uniform draws -/

theorem bitSrc_words_length {k : Nat} (b : Fin k × Fin 32 → Bool) : ((List.range k).map (bitSrc b)).length = k := by simp

/-- The coordinate of bit `q` of the cyclic string. -/
def bitCoord (k : Nat) (hk : 0 < k) (q : Nat) : Fin k × Fin 32 := (⟨q / 32 % k, Nat.mod_lt _ hk⟩, ⟨31 - q % 32, by omega⟩)

theorem msbStream_bitSrc {k : Nat} (hk : 0 < k) (b : Fin k × Fin 32 → Bool) (q : Nat) :
    msbStream ((List.range k).map (bitSrc b)) q = b (bitCoord k hk q) := by
  have hb := bitSrc_getLsbD (le_refl 32) b (bitCoord k hk q).1 (bitCoord k hk q).2
  rw [show ((bitCoord k hk q).1, (bitCoord k hk q).2) = bitCoord k hk q from rfl] at hb
  rw [← hb, msbStream, bitSrc_words_length, msb]
  have : q / 32 % k < k := Nat.mod_lt _ hk
  simp [List.getD, this, bitCoord, Nat.mod_lt]

theorem bitCoord_inj {k : Nat} (hk : 0 < k) {p q : Nat} (h : bitCoord k hk p = bitCoord k hk q) : p % (32 * k) = q % (32 * k) := by
  simp only [bitCoord, Prod.mk.injEq, Fin.mk.injEq] at h
  have e : ∀ x, x % (32 * k) = 32 * (x / 32 % k) + x % 32 := by
    intro x
    rw [Nat.mod_mul]; omega
  rw [e, e]; omega

theorem window_after {k m : Nat} (hk : 0 < k) (s t d : Nat) (hd : 0 < d) (hdm : d + m ≤ 32 * k) (hst : (s + d) % (32 * k) = t % (32 * k)) :
    After (fun i : Fin m => bitCoord k hk (s + i)) (fun i : Fin m => bitCoord k hk (t + i)) := by
  have hco : ∀ p q, p % (32 * k) = q % (32 * k) → bitCoord k hk p = bitCoord k hk q := by
    intro p q h
    have h1 : p / 32 % k = q / 32 % k := by
      rw [← Nat.mod_mul_right_div_self, ← Nat.mod_mul_right_div_self, h]
    have h2 : p % 32 = q % 32 := by
      rw [← Nat.mod_mul_right_mod p 32 k, ← Nat.mod_mul_right_mod q 32 k, h]
    simp only [bitCoord, h1, h2]
  refine ⟨d, hd, fun j => bitCoord k hk (s + j), ?_, fun i => rfl, fun i => ?_⟩
  · intro i j h
    have h1 := bitCoord_inj hk h
    have h2 : (i : ℕ) % (32 * k) = j % (32 * k) := Nat.ModEq.add_left_cancel' s h1
    rw [Nat.mod_eq_of_lt (by omega), Nat.mod_eq_of_lt (by omega)] at h2
    exact Fin.ext h2
  · refine hco _ _ ?_
    show (t + i) % (32 * k) = (s + (d + i)) % (32 * k)
    rw [← Nat.add_assoc]
    exact (Nat.ModEq.add_right (i : ℕ) hst).symm

/-- Reading a number's bits from the most significant one. -/
theorem sum_patterns (m : Nat) (g : (Fin m → Bool) → ℝ) :
    ∑ v ∈ Finset.range (2 ^ m), g (fun i => v.testBit (m - 1 - i)) = ∑ w, g w := by
  refine Finset.sum_bij' (fun v _ (i : Fin m) => v.testBit (m - 1 - i)) (fun w _ => Nat.ofBits fun i => w i.rev) ?_ ?_ ?_ ?_ ?_
  · intro v _; exact Finset.mem_univ _
  · intro w _; rw [Finset.mem_range]; exact Nat.ofBits_lt_two_pow _
  · intro v hv
    rw [Finset.mem_range] at hv
    have : (fun i : Fin m => v.testBit (m - 1 - (i.rev : Fin m))) = fun i : Fin m => v.testBit i := by
      funext i
      congr 1
      rw [Fin.val_rev]; omega
    rw [this, Nat.ofBits_testBit, Nat.mod_eq_of_lt hv]
  · intro w _
    funext i
    rw [Nat.testBit_ofBits_lt _ _ (by omega)]
    congr 1
    apply Fin.ext
    rw [Fin.val_rev]; simp only; omega
  · intro v _; rfl

theorem letterProb_bool (a : Bool) : letterProb (id : Bool → Bool) a = 1 / 2 := by
  rw [letterProb, mean_indicator]
  cases a <;> simp [Finset.filter_insert, Finset.filter_singleton]

theorem serialPsi_windows {k : Nat} (hk : 0 < k) (m : Nat) (b : Fin k × Fin 32 → Bool) :
    serialPsi ((List.range k).map (bitSrc b)) m =
      wordChi (wordProb (id : Bool → Bool)) (fun t : Fin (32 * k) => wordAt id b fun i : Fin m => bitCoord k hk (t + i)) := by
  have hp : ∀ w : Fin m → Bool, wordProb (id : Bool → Bool) w = 1 / 2 ^ m := by
    intro w
    rw [wordProb]
    simp [letterProb_bool]
  rw [serialPsi, wordChi, ← sum_patterns, bitSrc_words_length]
  refine Finset.sum_congr rfl fun v hv => ?_
  have hc : patternCount ((List.range k).map (bitSrc b)) m v =
      (Finset.univ.filter fun t : Fin (32 * k) => (wordAt id b fun i : Fin m => bitCoord k hk (t + i)) = fun i : Fin m => v.testBit (m - 1 - (i : ℕ))).card := by
    rw [patternCount, bitSrc_words_length, List.countP_eq_length_filter, ← List.toFinset_card_of_nodup (List.Nodup.filter _ List.nodup_range)]
    refine Finset.card_bij' (fun t ht => (⟨t, ?_⟩ : Fin (32 * k))) (fun t _ => (t : ℕ)) ?_ ?_ (fun _ _ => rfl) (fun _ _ => rfl)
    · simp only [List.toFinset_filter, Finset.mem_filter, List.mem_toFinset, List.mem_range] at ht
      exact ht.1
    · intro t ht
      simp only [List.toFinset_filter, Finset.mem_filter, List.mem_toFinset, List.mem_range, occurs, List.all_eq_true, beq_iff_eq] at ht
      rw [Finset.mem_filter]
      refine ⟨Finset.mem_univ _, funext fun i => ?_⟩
      rw [← ht.2 i i.2, msbStream_bitSrc hk]
      rfl
    · intro t ht
      rw [Finset.mem_filter] at ht
      simp only [List.toFinset_filter, Finset.mem_filter, List.mem_toFinset, List.mem_range, occurs, List.all_eq_true, beq_iff_eq]
      refine ⟨t.2, fun i hi => ?_⟩
      rw [msbStream_bitSrc hk]
      exact congrFun ht.2 ⟨i, hi⟩
  rw [hc, hp]
  push_cast
  rw [mul_one_div]

/-- **C84.** For independent uniform words the statistic of width `m` has exactly the mean of a chi-square variable with `2^m - 1`
degrees of freedom, although the windows overlap, for every number of words. -/
theorem C84_mean (k m : Nat) (hk : 0 < k) (hm : m ≤ 16 * k) :
    mean (fun b : Fin k × Fin 32 → Bool => serialPsi ((List.range k).map (bitSrc b)) m) = 2 ^ m - 1 := by
  rw [mean_congr fun b => serialPsi_windows hk m b]
  have h := windowChi_mean (L := (id : Bool → Bool)) Function.surjective_id (n := 32 * k) (m := m) (J := Fin k × Fin 32) (by omega)
    (fun t i => bitCoord k hk (t + i)) ?_ ?_
  · rw [Fintype.card_bool] at h
    exact_mod_cast h
  · intro t i j h
    have h1 := bitCoord_inj hk h
    have h2 : (i : ℕ) % (32 * k) = j % (32 * k) := Nat.ModEq.add_left_cancel' (t : ℕ) h1
    rw [Nat.mod_eq_of_lt (by omega), Nat.mod_eq_of_lt (by omega)] at h2
    exact Fin.ext h2
  · intro s t hst
    have hst' : (s : ℕ) ≠ t := fun h => hst (Fin.ext h)
    rcases Nat.lt_or_gt_of_ne hst' with h | h
    · by_cases hd : (t : ℕ) - s + m ≤ 32 * k
      · exact Or.inl (window_after hk s t (t - s) (by omega) hd (by congr 1; omega))
      · refine Or.inr (window_after hk t s (32 * k - (t - s)) (by omega) (by omega) ?_)
        rw [show (t : ℕ) + (32 * k - (t - s)) = s + 32 * k from by omega, Nat.add_mod_right]
    · by_cases hd : (s : ℕ) - t + m ≤ 32 * k
      · exact Or.inr (window_after hk t s (s - t) (by omega) hd (by congr 1; omega))
      · refine Or.inl (window_after hk s t (32 * k - (s - t)) (by omega) (by omega) ?_)
        rw [show (s : ℕ) + (32 * k - (s - t)) = t + 32 * k from by omega, Nat.add_mod_right]

/-- **C84.** The differences that sts_serial tests have exactly the means of the chi-square variables they are compared with: the degrees
of freedom, which are twice the first argument of `gsl_sf_gamma_inc_Q` in `C84_statistics`. -/
theorem C84_degrees (k m : Nat) (hk : 0 < k) (hm : 2 ≤ m) (hm16 : m ≤ 16) :
    mean (fun b : Fin k × Fin 32 → Bool => serialPsi ((List.range k).map (bitSrc b)) m - serialPsi ((List.range k).map (bitSrc b)) (m - 1)) =
      2 ^ (m - 1) ∧
    mean (fun b : Fin k × Fin 32 → Bool => serialPsi ((List.range k).map (bitSrc b)) m - 2 * serialPsi ((List.range k).map (bitSrc b)) (m - 1) +
      serialPsi ((List.range k).map (bitSrc b)) (m - 2)) = 2 ^ (m - 2) := by
  obtain ⟨j, rfl⟩ : ∃ j, m = j + 2 := ⟨m - 2, by omega⟩
  rw [mean_add, mean_sub, mean_sub, mean_mul_left, C84_mean k _ hk (by omega), C84_mean k _ hk (by omega), C84_mean k _ hk (by omega)]
  simp only [Nat.add_sub_cancel, show j + 2 - 1 = j + 1 from rfl, pow_succ]
  constructor <;> ring

/-- Exchanging the two bit values. -/
def notEquiv : Bool ≃ Bool := ⟨not, not, Bool.not_not, Bool.not_not⟩

/-- **C84.** The difference of zeros and ones has mean 0 and variance the number of bits. -/
theorem C84_mono (k : Nat) (hk : 0 < k) :
    mean (fun b : Fin k × Fin 32 → Bool => 2 * (patternCount ((List.range k).map (bitSrc b)) 1 0 : ℝ) - 32 * k) = 0 ∧
    mean (fun b : Fin k × Fin 32 → Bool => (2 * (patternCount ((List.range k).map (bitSrc b)) 1 0 : ℝ) - 32 * k) ^ 2) = 32 * k := by
  have hk' : (k : ℝ) ≠ 0 := by exact_mod_cast hk.ne'
  have htot : ∀ b : Fin k × Fin 32 → Bool, (patternCount ((List.range k).map (bitSrc b)) 1 1 : ℝ) =
      32 * k - patternCount ((List.range k).map (bitSrc b)) 1 0 := by
    intro b
    obtain ⟨f, h1, h2, h3, h4⟩ := C40_sts_serial ((List.range k).map (bitSrc b)) (by simpa using hk) 1 (by omega) (by omega)
    rw [bitSrc_words_length] at h3
    match f, h2 with
    | [x, y], _ =>
      have e0 := h4 0 (by norm_num)
      have e1 := h4 1 (by norm_num)
      have hs : x + y = 32 * k := by simpa using h3
      rw [patternCount, patternCount, ← e0, ← e1]
      simp only [List.getD_cons_zero, List.getD_cons_succ]
      have : (x : ℝ) + y = 32 * k := by exact_mod_cast hs
      linarith
  constructor
  · have hneg : mean (fun b : Fin k × Fin 32 → Bool => 2 * (patternCount ((List.range k).map (bitSrc b)) 1 0 : ℝ) - 32 * k) =
        mean (fun b : Fin k × Fin 32 → Bool => -(2 * (patternCount ((List.range k).map (bitSrc b)) 1 0 : ℝ) - 32 * k)) := by
      rw [← mean_equiv ((Equiv.refl (Fin k × Fin 32)).arrowCongr notEquiv)]
      refine mean_congr fun b => ?_
      have : patternCount ((List.range k).map (bitSrc ((Equiv.refl (Fin k × Fin 32)).arrowCongr notEquiv b))) 1 0 =
          patternCount ((List.range k).map (bitSrc b)) 1 1 := by
        rw [patternCount, patternCount, bitSrc_words_length, bitSrc_words_length]
        refine List.countP_congr fun t _ => ?_
        simp only [occurs, List.range_one, List.all_cons, List.all_nil, msbStream_bitSrc hk]
        simp [Equiv.arrowCongr, notEquiv]
      rw [this, htot]
      ring
    have h2 : mean (fun b : Fin k × Fin 32 → Bool => -(2 * (patternCount ((List.range k).map (bitSrc b)) 1 0 : ℝ) - 32 * k)) =
        -mean (fun b : Fin k × Fin 32 → Bool => 2 * (patternCount ((List.range k).map (bitSrc b)) 1 0 : ℝ) - 32 * k) := by
      rw [← neg_one_mul, ← mean_mul_left]
      exact mean_congr fun b => by ring
    linarith
  · have h := C84_mean k 1 hk (by omega)
    have hx : ∀ b : Fin k × Fin 32 → Bool, (2 * (patternCount ((List.range k).map (bitSrc b)) 1 0 : ℝ) - 32 * k) ^ 2 =
        32 * k * serialPsi ((List.range k).map (bitSrc b)) 1 := by
      intro b
      rw [serialPsi, bitSrc_words_length, show 2 ^ 1 = 2 from rfl, Finset.sum_range_succ, Finset.sum_range_one, htot]
      field_simp
      ring
    rw [mean_congr hx, mean_mul_left, h]
    ring

/-- One word `0x0000FFFF`: 16 zeros and 16 ones; of the four pairs `01` and `10` stand once each and `00`, `11` 15 times. -/
example : patternCount [0x0000FFFF] 1 0 = 16 ∧ patternCount [0x0000FFFF] 2 0 = 15 ∧ patternCount [0x0000FFFF] 2 1 = 1 := by decide

example : serialPsi [0x0000FFFF] 1 = 0 ∧ serialPsi [0x0000FFFF] 2 = 24.5 := by
  have h : ∀ v < 4, patternCount [0x0000FFFF] 2 v = [15, 1, 1, 15].getD v 0 := by decide
  have h' : ∀ v < 2, patternCount [0x0000FFFF] 1 v = 16 := by decide
  constructor
  · rw [serialPsi, Finset.sum_congr rfl fun v hv => by rw [h' v (by simpa using hv)]]
    norm_num
  · rw [serialPsi, Finset.sum_congr rfl fun v hv => by rw [h v (by simpa using hv)]]
    norm_num [Finset.sum_range_succ]

end Dh
