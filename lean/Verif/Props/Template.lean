import Verif.Model.Template
import Verif.Props.XtestMean
import Verif.Props.StreamPeriod
import Verif.Proof.XorShift
/-
C120: the example test user_template and marsaglia_tsang_gorilla.  C121: the generator of rng_jenkins.c.
-/
namespace Dh

/-! ### C120 -/

theorem templateSkip_eq : ∀ n pos : Nat, templateSkip n pos = pos + n
  | 0, _ => rfl
  | n + 1, pos => by rw [templateSkip, templateSkip_eq n]; omega

theorem templateLoop_eq (u : Nat → ℚ) (skip : Nat) : ∀ (n pos : Nat) (x : ℚ), templateLoop u skip n pos x =
    (x + ∑ t ∈ Finset.range n, u (pos + t * (skip + 1) + skip), pos + n * (skip + 1))
  | 0, pos, x => by simp [templateLoop]
  | n + 1, pos, x => by
    rw [templateLoop, templateSkip_eq]
    rw [templateLoop_eq u skip n, Finset.sum_range_succ']
    congr 1
    · rw [Nat.zero_mul, Nat.add_zero]
      have : ∀ t, pos + skip + 1 + t * (skip + 1) + skip = pos + (t + 1) * (skip + 1) + skip := by intro t; ring
      simp only [this]
      ring_nf
    · ring

/-- C120: user_template tests the sum of `tsamples` values, of which it takes every `(ntuple+1)`-th from the generator; -x, which its
description names, has no influence. -/
theorem C120_template (cdf : ℝ → ℝ → ℝ) (u : Nat → ℚ) (ntuple : UInt) (xUser : ℚ) (n : Nat) :
    userTemplate cdf u ntuple xUser n =
      (cdf ((n : ℝ) / 2 - ∑ t ∈ Finset.range n, ((u ((t + 1) * (ntuple.toNat + 1) - 1) : ℚ) : ℝ)) (Real.sqrt (n / 12)), n * (ntuple.toNat + 1)) := by
  rw [userTemplate]
  rw [templateLoop_eq, xtestEval, zero_add, Nat.zero_add]
  have h : ∀ t, 0 + t * (ntuple.toNat + 1) + ntuple.toNat = (t + 1) * (ntuple.toNat + 1) - 1 := by
    intro t
    have : (t + 1) * (ntuple.toNat + 1) = t * (ntuple.toNat + 1) + ntuple.toNat + 1 := by ring
    omega
  simp only [h]
  congr 2
  push_cast
  norm_num
  ring

/-- C120: with the lag as ntuple, rgb_lagged_sums computes the same p-value from the same values, so all that is proved about its
statistic (C101) holds for user_template. -/
theorem C120_same (cdf : ℝ → ℝ → ℝ) (u : Nat → ℚ) (lag : UInt) (xUser : ℚ) (n : Nat) :
    userTemplate cdf u lag xUser n = (laggedTest cdf u lag.toNat n, (laggedSums u lag.toNat n).2) := by
  rw [userTemplate, laggedTest, laggedSums, laggedLoop_eq]
  rw [templateLoop_eq, Finset.sum_range, list_sum_fin]

/-- C120: marsaglia_tsang_gorilla, which no number selects, is the same test with every second value, or every `⌊x⌋`-th if -x is at least 1;
for other `x` between -1 and 1 it takes every `2^32`-th value, and outside of `unsigned int` it is not defined. -/
theorem C120_gorilla (cdf : ℝ → ℝ → ℝ) (u : Nat → ℚ) (x : ℚ) (n : Nat) :
    gorilla cdf u x n =
      if x = 0 then .ok (userTemplate cdf u 1 x n)
      else if 1 ≤ x ∧ x < 2 ^ 32 then .ok (userTemplate cdf u (BitVec.ofNat 32 (⌊x⌋.toNat - 1)) x n)
      else if -1 < x ∧ x < 1 then .ok (userTemplate cdf u 0xffffffff x n)
      else .ub := by
  rw [gorilla, gorillaLag]
  by_cases h0 : x = 0
  · rw [if_neg (by simpa using h0), if_pos h0]
    rfl
  rw [if_pos h0, if_neg h0, toUint]
  by_cases h1 : 1 ≤ x ∧ x < 2 ^ 32
  · rw [if_pos ⟨by linarith [h1.1], h1.2⟩, if_pos h1]
    simp only [Res.bind_ok, userTemplate]
    have hf1 : 1 ≤ ⌊x⌋ := Int.le_floor.2 (by exact_mod_cast h1.1)
    have hf2 : ⌊x⌋ < 2 ^ 32 := Int.floor_lt.2 (by exact_mod_cast h1.2)
    have hfl : x.floor = ⌊x⌋ := rfl
    have : BitVec.ofNat 32 x.floor.toNat - 1 = BitVec.ofNat 32 (⌊x⌋.toNat - 1) := by
      rw [hfl]
      apply BitVec.eq_of_toNat_eq
      rw [BitVec.toNat_sub, BitVec.toNat_ofNat, BitVec.toNat_ofNat, show (1 : UInt).toNat = 1 from rfl]
      omega
    rw [this]
  · rw [if_neg h1]
    by_cases h2 : -1 < x ∧ x < 1
    · rw [if_pos ⟨h2.1, by linarith [h2.2]⟩, if_pos h2]
      have hz : x.floor.toNat = 0 := by
        have : ⌊x⌋ < 1 := Int.floor_lt.2 (by exact_mod_cast h2.2)
        show ⌊x⌋.toNat = 0
        omega
      simp only [Res.bind_ok, hz, userTemplate]
      rfl
    · rw [if_neg, if_neg h2]
      · rfl
      · rintro ⟨a, b⟩
        by_cases h3 : x < 1
        · exact h2 ⟨a, h3⟩
        · exact h1 ⟨not_lt.1 h3, b⟩

/-- Lag 2, three samples: values number 2, 5 and 8 of nine. -/
example : templateLoop (fun i => i) 2 3 0 0 = (2 + 5 + 8, 9) := by decide +kernel
/-- -x 0.5 is the lag 0, and `lag-1` is 4294967295. -/
example : gorillaLag (1 / 2) = .ok 0 ∧ ((0 : UInt) - 1).toNat = 4294967295 ∧ gorillaLag (7 / 2) = .ok 3 ∧ gorillaLag (-3) = .ub := by decide +kernel

/-! ### C121 -/

theorem mul_shl_inj (k b : UInt) (s : Nat) (hk : ∀ a : UInt, a + (a <<< s) = k * a) (hb : b * k = 1#32) (x y : UInt)
    (h : x + (x <<< s) = y + (y <<< s)) : x = y := by
  rw [hk, hk] at h
  have := congrArg (fun t => b * t) h
  simp only [← BitVec.mul_assoc, hb, BitVec.one_mul] at this
  exact this

theorem add_shl (s : Nat) (a : UInt) : a + (a <<< s) = BitVec.ofNat 32 (2 ^ s + 1) * a := by
  apply BitVec.eq_of_toNat_eq
  rw [BitVec.toNat_add, BitVec.toNat_mul, BitVec.toNat_shiftLeft, BitVec.toNat_ofNat, Nat.shiftLeft_eq, Nat.add_mod_mod, Nat.mod_mul_mod]
  congr 1
  ring

theorem jenkinsStep_inj : Function.Injective jenkinsStep := by
  intro x y h
  unfold jenkinsStep at h
  simp only [show ∀ a : UInt, a + 0 = a from BitVec.add_zero] at h
  exact mul_shl_inj _ 0xc00ffc01 10 (add_shl 10) (by decide +kernel) _ _ (xorshr_inj 6 (by omega) _ _ h)

theorem jenkinsPost_inj : Function.Injective jenkinsPost := by
  intro x y h
  unfold jenkinsPost at h
  simp only at h
  exact mul_shl_inj _ 0x38e38e39 3 (add_shl 3) (by decide +kernel) _ _
    (xorshr_inj 11 (by omega) _ _ (mul_shl_inj _ 0x3fff8001 15 (add_shl 15) (by decide +kernel) _ _ h))

theorem jenkinsLoop_eq : ∀ (n : Nat) (a : UInt), jenkinsLoop n a = (List.range n).map fun i => jenkinsPost (jenkinsStep^[i + 1] a)
  | 0, _ => rfl
  | n + 1, a => by
    rw [jenkinsLoop, List.range_succ_eq_map, List.map_cons, List.map_map, jenkinsLoop_eq n]
    rfl

/-- C121: the words written by rng_jenkins.c are purely periodic with a period of at most `2^32 - 1`; within a period no word is repeated,
and no word is 0. -/
theorem C121_jenkins : ∃ P, 0 < P ∧ P ≤ 2 ^ 32 - 1 ∧ ∀ n : Nat,
    (∀ i j (hi : i < (jenkins n).length) (hj : j < (jenkins n).length), (jenkins n)[i] = (jenkins n)[j] ↔ i % P = j % P) ∧
    (jenkins n).length = n ∧ 0 ∉ jenkins n := by
  have hne : ∀ a : UInt, a ≠ 0 → jenkinsStep a ≠ 0 := by
    intro a ha h
    exact ha (jenkinsStep_inj (h.trans (by decide : (0 : UInt) = jenkinsStep 0)))
  have : Fintype UInt := Fintype.ofEquiv (Fin (2 ^ 32)) ⟨BitVec.ofFin, BitVec.toFin, fun _ => rfl, fun _ => rfl⟩
  let f : {a : UInt // a ≠ 0} → {a : UInt // a ≠ 0} := fun a => ⟨jenkinsStep a.1, hne a.1 a.2⟩
  have hf : Function.Injective f := fun x y h => Subtype.ext (jenkinsStep_inj (congrArg Subtype.val h))
  let a0 : {a : UInt // a ≠ 0} := ⟨jenkinsStep 0xbb48e941, hne _ (by decide)⟩
  have hit : ∀ i, (f^[i] a0).1 = jenkinsStep^[i + 1] 0xbb48e941 := by
    intro i
    induction i with
    | zero => rfl
    | succ i ih => rw [Function.iterate_succ_apply', Function.iterate_succ_apply', ← ih]
  obtain ⟨P, hP, hle, hper⟩ := orbit_cycle f hf a0
  refine ⟨P, hP, ?_, fun n => ⟨fun i j hi hj => ?_, ?_, ?_⟩⟩
  · have h1 : Fintype.card {a : UInt // a ≠ 0} < Fintype.card UInt := Fintype.card_subtype_lt (x := 0) (by simp)
    have h2 : Fintype.card UInt = 2 ^ 32 := by
      rw [Fintype.card_congr (⟨BitVec.toFin, BitVec.ofFin, fun _ => rfl, fun _ => rfl⟩ : UInt ≃ Fin (2 ^ 32)), Fintype.card_fin]
    omega
  · rw [← hper i j]
    simp only [jenkins, jenkinsLoop_eq, List.getElem_map, List.getElem_range]
    rw [← hit i, ← hit j]
    exact ⟨fun h => Subtype.ext (jenkinsPost_inj h), fun h => by rw [h]⟩
  · rw [jenkins, jenkinsLoop_eq, List.length_map, List.length_range]
  · rw [jenkins, jenkinsLoop_eq, List.mem_map]
    rintro ⟨i, _, hi⟩
    rw [← hit i] at hi
    exact (f^[i] a0).2 (jenkinsPost_inj (hi.trans (by decide : (0 : UInt) = jenkinsPost 0)))

/-- The first four words (also computed with another program). -/
example : jenkins 4 = [0x8297bb2, 0xed2a6cb1, 0xc5a9fb96, 0x1cf2e9f4] := by decide +kernel

end Dh
