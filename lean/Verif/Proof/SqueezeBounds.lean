import Verif.Proof.SqueezeNum
import Verif.Props.GcdMean
import Mathlib.Analysis.SpecialFunctions.Trigonometric.DerivHyp
/-
The symmetric functions of 1/2, ..., 1/(2^31 - 1) between decimal bounds.
-/
set_option linter.style.longLine false
namespace Dh
open Spec Finset

/-- The sum of `S / m^i`, rounded down, for `m` from `a` to `a + 2^d - 1`. -/
def sumFloor (S i d : Nat) : Nat → Nat :=
  Nat.rec (fun a => Nat.div S (Nat.pow a i)) (fun d ih a => Nat.add (ih a) (ih (Nat.add a (Nat.pow 2 d)))) d

theorem sumFloor_spec (S i : Nat) : ∀ d a, 1 ≤ a → (sumFloor S i d a : ℝ) ≤ S * ∑ m ∈ Ico a (a + 2 ^ d), 1 / (m : ℝ) ^ i ∧
    S * ∑ m ∈ Ico a (a + 2 ^ d), 1 / (m : ℝ) ^ i ≤ sumFloor S i d a + 2 ^ d := by
  intro d
  induction d with
  | zero =>
    intro a ha
    have ha' : (0 : ℝ) < (a : ℝ) ^ i := by have : (0 : ℝ) < a := by exact_mod_cast ha
                                           positivity
    have e : sumFloor S i 0 a = S / a ^ i := rfl
    rw [e, pow_zero, Nat.Ico_succ_singleton, Finset.sum_singleton]
    have h1 : S / a ^ i * a ^ i ≤ S := Nat.div_mul_le_self _ _
    have h2 : S < S / a ^ i * a ^ i + a ^ i := Nat.lt_div_mul_add (Nat.pow_pos (by omega))
    have h3 : ((S / a ^ i : ℕ) : ℝ) * (a : ℝ) ^ i ≤ S := by exact_mod_cast h1
    have h4 : (S : ℝ) ≤ ((S / a ^ i : ℕ) : ℝ) * (a : ℝ) ^ i + (a : ℝ) ^ i := by exact_mod_cast h2.le
    constructor
    · rw [mul_one_div, le_div_iff₀ ha']
      exact h3
    · rw [mul_one_div, div_le_iff₀ ha', pow_zero]
      linarith
  | succ d ih =>
    intro a ha
    have e : sumFloor S i (d + 1) a = sumFloor S i d a + sumFloor S i d (a + 2 ^ d) := rfl
    have h1 := ih a ha
    have h2 := ih (a + 2 ^ d) (ha.trans (Nat.le_add_right _ _))
    have hs : ∑ m ∈ Ico a (a + 2 ^ (d + 1)), 1 / (m : ℝ) ^ i = ∑ m ∈ Ico a (a + 2 ^ d), 1 / (m : ℝ) ^ i + ∑ m ∈ Ico (a + 2 ^ d) (a + 2 ^ d + 2 ^ d), 1 / (m : ℝ) ^ i := by
      rw [Finset.sum_Ico_consecutive _ (Nat.le_add_right _ _) (Nat.le_add_right _ _), pow_succ, show a + 2 ^ d * 2 = a + 2 ^ d + 2 ^ d by omega]
    rw [hs, e, mul_add, pow_succ]
    push_cast
    constructor <;> linarith [h1.1, h1.2, h2.1, h2.2]

/-- The sums `sumFloor 10^18 i d 1` for `i` from 1 on: `d = 14` for the first three, then `d = 10`. -/
def floorList : List Nat :=
  [10281306710008443205, 1644873033554575521, 1202056901297054661, 1082323233401151293, 1036927755143142483, 1017343061984448465,
  1008349277381922586, 1004077356197944234, 1002008392826082156, 1000994575127818049, 1000494188604119439, 1000246086553308029,
  1000122713347578476, 1000061248135058694, 1000030588236307013, 1000015282259408646, 1000007637197637895, 1000003817293264997,
  1000001908212716549, 1000000953962033869, 1000000476932986785, 1000000238450502725, 1000000119219925962, 1000000059608189049,
  1000000029803503513, 1000000014901554826, 1000000007450711788, 1000000003725334023, 1000000001862659722, 1000000000931327430,
  1000000000465662905, 1000000000232831182, 1000000000116415500, 1000000000058207719, 1000000000029103849, 1000000000014551921,
  1000000000007275959, 1000000000003637978, 1000000000001818989, 1000000000000909494, 1000000000000454747, 1000000000000227373,
  1000000000000113686, 1000000000000056843, 1000000000000028421, 1000000000000014210, 1000000000000007105]

/-- Bounds of the power sums, times 10^18. -/
def psumLo : List Nat :=
  [0, 21064778256831826274, 644934064520101295, 202056901297054661, 82323233401151293, 36927755143142483, 17343061984448465,
  8349277381922586, 4077356197944234, 2008392826082156, 994575127818049, 494188604119439, 246086553308029, 122713347578476, 61248135058694,
  30588236307013, 15282259408646, 7637197637895, 3817293264997, 1908212716549, 953962033869, 476932986785, 238450502725, 119219925962,
  59608189049, 29803503513, 14901554826, 7450711788, 3725334023, 1862659722, 931327430, 465662905, 232831182, 116415500, 58207719,
  29103849, 14551921, 7275959, 3637978, 1818989, 909494, 454747, 227373, 113686, 56843, 28421, 14210, 7105]

def psumHi : List Nat :=
  [0, 21064778266728854944, 644934068710841905, 202056905022361344, 82323234332474892, 36927755144053002, 17343061984450378,
  8349277381923611, 4077356197945259, 2008392826083181, 994575127819074, 494188604120464, 246086553309054, 122713347579501, 61248135059719,
  30588236308038, 15282259409671, 7637197638920, 3817293266022, 1908212717574, 953962034894, 476932987810, 238450503750, 119219926987,
  59608190074, 29803504538, 14901555851, 7450712813, 3725335048, 1862660747, 931328455, 465663930, 232832207, 116416525, 58208744,
  29104874, 14552946, 7276984, 3639003, 1820014, 910519, 455772, 228398, 114711, 57868, 29446, 15235, 8130]

/-- Bounds of the homogeneous functions, times 10^10. -/
def hsumLo : List Nat :=
  [10000000000, 210647782568, 2221849085366, 15646877600995, 82768584827167, 350811948161953, 1241084766548351, 3769646261554884,
  10035687042403105, 23790410273013336, 50849045691891223, 98987081956424582, 176977702436158533, 292655157809240884, 450295138584631045,
  648027427651732520, 876215807161998147, 1117594264931544304, 1349441953990297594, 1547398964406467867, 1689951830356756707,
  1762387316652366057, 1759204571335923093, 1684487775686247134, 1550356671674801879, 1374105720035246211, 1174873290524468725,
  970630679886739618, 776027532373012435, 601301186493137313, 452167009625866640, 330422953336385632, 234938960338432151,
  162735407679606435, 109941761096557848, 72526029635091003, 46769279646822616, 29514693826749879, 18247116849560380, 11063439935507995,
  6585415669835031, 3852362400329816, 2217039629417437, 1256526615763998, 702052448632081, 387090560534505, 210835261628024]

def hsumHi : List Nat :=
  [10000000000, 210647782668, 2221849087484, 15646877623526, 82768584987408, 350811949018677, 1241084770220684, 3769646274700578,
  10035687082823113, 23790410381991870, 50849045953629284, 98987082523423786, 176977703555256058, 292655159838533767, 450295141989169182,
  648027432967993308, 876215814928626925, 1117594275594935940, 1349441967804320448, 1547398981351405513, 1689951850100388418,
  1762387338566190322, 1759204594565168925, 1684487799258504049, 1550356694623338414, 1374105741511674782, 1174873309880856340,
  970630696716905188, 776027546513119741, 601301197989846333, 452167018684660413, 330422960263152683, 234938965484951430,
  162735411399706759, 109941763715754250, 72526031433342102, 46769280852088461, 29514694616217652, 18247117355458983, 11063440252990863,
  6585415865155913, 3852362518249880, 2217039699348986, 1256526656543197, 702052472037531, 387090573770012, 210835269009494]

theorem floor_head : ∀ i < 3, sumFloor 1000000000000000000 (i + 1) 14 1 = floorList.getD i 0 := by decide +kernel

theorem floor_rest : ∀ i < 44, sumFloor 1000000000000000000 (i + 4) 10 1 = floorList.getD (i + 3) 0 := by decide +kernel

theorem hsum_check_lo : ∀ j < 46, hsumLo.getD (j + 1) 0 * ((j + 1) * 1000000000000000000) ≤ ∑ i ∈ range (j + 1), psumLo.getD (i + 1) 0 * hsumLo.getD (j - i) 0 := by
  decide +kernel

theorem hsum_check_hi : ∀ j < 46, ∑ i ∈ range (j + 1), psumHi.getD (i + 1) 0 * hsumHi.getD (j - i) 0 ≤ hsumHi.getD (j + 1) 0 * ((j + 1) * 1000000000000000000) := by
  decide +kernel

/-- The harmonic sum between M and N against the logarithm, by the trapezoidal rule. -/
theorem harmonic_bounds (M N : Nat) (hM : 2 ≤ M) (hN : M ≤ N) :
    Real.log N - Real.log M ≤ ∑ m ∈ Ico (M + 1) (N + 1), 1 / (m : ℝ) + (1 / (M : ℝ) - 1 / N) / 2 ∧
    ∑ m ∈ Ico (M + 1) (N + 1), 1 / (m : ℝ) + (1 / (M : ℝ) - 1 / N) / 2 ≤
      Real.log N - Real.log M + (1 / (8 * ((M : ℝ) - 1) * M) - 1 / (8 * ((N : ℝ) - 1) * N)) := by
  induction N, hN using Nat.le_induction with
  | base => simp
  | succ N hN ih =>
    rw [Finset.sum_Ico_succ_top (by omega)]
    have h0 : (2 : ℝ) ≤ N := by exact_mod_cast (by omega : 2 ≤ N)
    have h1 : (0 : ℝ) < N := by linarith
    have h2 : (0 : ℝ) < (N : ℝ) - 1 := by linarith
    have hx : (0 : ℝ) < 1 / (N : ℝ) := by positivity
    have hl : Real.log ((N + 1 : ℕ) : ℝ) = Real.log N + Real.log (1 + 1 / (N : ℝ)) := by
      rw [← Real.log_mul h1.ne' (by positivity)]
      congr 1
      push_cast
      field_simp
    have lo : 2 * (1 / (N : ℝ)) / (1 / (N : ℝ) + 2) ≤ Real.log (1 + 1 / (N : ℝ)) := Real.le_log_one_add_of_nonneg hx.le
    have hi : Real.log (1 + 1 / (N : ℝ)) ≤ (1 / (N : ℝ) + 1 / ((N : ℝ) + 1)) / 2 := by
      have a : Real.log (1 + 1 / (N : ℝ)) ≤ Real.sinh (Real.log (1 + 1 / (N : ℝ))) :=
        Real.self_le_sinh_iff.2 (Real.log_nonneg (by linarith))
      rw [Real.sinh_log (by positivity)] at a
      refine a.trans (le_of_eq ?_)
      field_simp
      ring
    have up : (1 / (N : ℝ) + 1 / ((N : ℝ) + 1)) / 2 ≤ 2 * (1 / (N : ℝ)) / (1 / (N : ℝ) + 2) +
        (1 / (8 * ((N : ℝ) - 1) * N) - 1 / (8 * (((N : ℝ) + 1) - 1) * ((N : ℝ) + 1))) := by
      have e1 : 2 * (1 / (N : ℝ)) / (1 / (N : ℝ) + 2) = 2 / (2 * N + 1) := by field_simp; ring
      have e2 : (1 / (N : ℝ) + 1 / ((N : ℝ) + 1)) / 2 = 2 / (2 * N + 1) + 1 / (2 * N * (N + 1) * (2 * N + 1)) := by field_simp; ring
      have e3 : 1 / (8 * ((N : ℝ) - 1) * N) - 1 / (8 * (((N : ℝ) + 1) - 1) * ((N : ℝ) + 1)) = 1 / (4 * ((N : ℝ) - 1) * N * (N + 1)) := by
        rw [add_sub_cancel_right]
        field_simp
        ring
      rw [e1, e2, e3]
      refine add_le_add le_rfl (one_div_le_one_div_of_le (by positivity) ?_)
      have : (0 : ℝ) ≤ N * (N + 1) := by positivity
      nlinarith
    rw [hl]
    push_cast
    constructor
    · linarith [ih.1]
    · linarith [ih.2]

theorem pow_tail (M N i : Nat) (hM : 1 ≤ M) (hN : M ≤ N) : ∑ m ∈ Ico (M + 1) (N + 1), 1 / (m : ℝ) ^ (i + 2) ≤ 1 / (M : ℝ) ^ (i + 1) := by
  have h := inv_sq_le M N hM hN
  have h' : ∑ m ∈ Ico (M + 1) (N + 1), 1 / (m : ℝ) ^ 2 ≤ 1 / (M : ℝ) - 1 / N := by
    have := (Rat.cast_le (K := ℝ)).2 h
    push_cast at this
    exact this
  have hM0 : (0 : ℝ) < M := by exact_mod_cast hM
  have hN0 : (0 : ℝ) < N := by exact_mod_cast (by omega : 0 < N)
  have e : ∑ m ∈ Ico (M + 1) (N + 1), 1 / (m : ℝ) ^ (i + 2) ≤ 1 / (M : ℝ) ^ i * ∑ m ∈ Ico (M + 1) (N + 1), 1 / (m : ℝ) ^ 2 := by
    rw [Finset.mul_sum]
    refine Finset.sum_le_sum fun m hm => ?_
    have hm1 : (M : ℝ) ≤ m := by exact_mod_cast (by have := (mem_Ico.1 hm).1; omega : M ≤ m)
    have hm0 : (0 : ℝ) < m := by linarith
    rw [pow_add, ← one_div_mul_one_div]
    exact mul_le_mul_of_nonneg_right (one_div_le_one_div_of_le (by positivity) (pow_le_pow_left₀ hM0.le hm1 i)) (by positivity)
  refine e.trans ?_
  have p : (0 : ℝ) < 1 / (M : ℝ) ^ i := by positivity
  have q : (0 : ℝ) < 1 / (N : ℝ) := by positivity
  calc 1 / (M : ℝ) ^ i * ∑ m ∈ Ico (M + 1) (N + 1), 1 / (m : ℝ) ^ 2 ≤ 1 / (M : ℝ) ^ i * (1 / M) := mul_le_mul_of_nonneg_left (by linarith) p.le
    _ = 1 / (M : ℝ) ^ (i + 1) := by rw [pow_succ]; field_simp

/-- A power sum in two parts. -/
theorem psum_parts (S i d N f : Nat) (tl tu : ℝ) (hf : sumFloor S i d 1 = f) (hN : 2 ^ d ≤ N)
    (h1 : tl ≤ ∑ m ∈ Ico (α := ℕ) (2 ^ d + 1) (N + 1), 1 / (m : ℝ) ^ i) (h2 : ∑ m ∈ Ico (α := ℕ) (2 ^ d + 1) (N + 1), 1 / (m : ℝ) ^ i ≤ tu) :
    (f : ℝ) - S + S * tl ≤ S * psum i N ∧ S * psum i N ≤ f + 2 ^ d - S + S * tu := by
  have s := sumFloor_spec S i d 1 le_rfl
  rw [hf] at s
  have hp : 1 ≤ 2 ^ d := Nat.one_le_two_pow
  have e : (psum i N : ℝ) = ∑ m ∈ Ico (α := ℕ) 1 (1 + 2 ^ d), 1 / (m : ℝ) ^ i - 1 + ∑ m ∈ Ico (α := ℕ) (2 ^ d + 1) (N + 1), 1 / (m : ℝ) ^ i := by
    rw [add_comm 1 (2 ^ d), sub_add_eq_add_sub, Finset.sum_Ico_consecutive _ (by omega) (by omega), Finset.sum_eq_sum_Ico_succ_bot (by omega)]
    have : Icc 2 N = Ico (1 + 1) (N + 1) := by ext x; simp only [mem_Icc, mem_Ico]; omega
    rw [psum, this]
    push_cast
    simp
  have hS : (0 : ℝ) ≤ S := Nat.cast_nonneg _
  have a := mul_le_mul_of_nonneg_left h1 hS
  have b := mul_le_mul_of_nonneg_left h2 hS
  rw [e, mul_add, mul_sub, mul_one]
  constructor <;> linarith [s.1, s.2]

/-- The harmonic tail from 2^14 to 2^31 - 1. -/
theorem harmonic_tail : 17 * 0.6931471803 - 1 / 2 ^ 30 - (1 / 16384 - 1 / 2147483647) / 2 ≤ ∑ m ∈ Ico (α := ℕ) (2 ^ 14 + 1) (2147483647 + 1), 1 / (m : ℝ) ^ 1 ∧
    ∑ m ∈ Ico (α := ℕ) (2 ^ 14 + 1) (2147483647 + 1), 1 / (m : ℝ) ^ 1 ≤ 17 * 0.6931471808 - (1 / 16384 - 1 / 2147483647) / 2 + 1 / (8 * 16383 * 16384) := by
  have hb := harmonic_bounds (2 ^ 14) 2147483647 (by norm_num) (by norm_num)
  have e0 : (31 : ℝ) * Real.log 2 = Real.log (2 ^ 31) := by rw [Real.log_pow]; norm_num
  have c1 : ((2 ^ 14 : ℕ) : ℝ) = 2 ^ 14 := by norm_num
  have c2 : ((2147483647 : ℕ) : ℝ) = 2147483647 := by norm_num
  have l1 : Real.log ((2 : ℝ) ^ 14) = 14 * Real.log 2 := by rw [Real.log_pow]; norm_num
  have l2 : Real.log 2147483647 ≤ 31 * Real.log 2 := by
    rw [e0]
    exact Real.log_le_log (by norm_num) (by norm_num)
  have l3 : 31 * Real.log 2 - 1 / 2 ^ 30 ≤ Real.log 2147483647 := by
    have g := Real.one_sub_inv_le_log_of_pos (x := (2147483647 : ℝ) / 2 ^ 31) (by norm_num)
    rw [Real.log_div (by norm_num) (by norm_num), ← e0] at g
    have : (-(1 / 2 ^ 30) : ℝ) ≤ 1 - ((2147483647 : ℝ) / 2 ^ 31)⁻¹ := by norm_num
    linarith
  rw [c1, c2, l1] at hb
  have g1 := Real.log_two_gt_d9
  have g2 := Real.log_two_lt_d9
  simp only [pow_one]
  generalize (∑ m ∈ Ico (α := ℕ) (2 ^ 14 + 1) (2147483647 + 1), 1 / (m : ℝ)) = A at *
  generalize Real.log 2147483647 = lN at *
  generalize Real.log 2 = l at *
  obtain ⟨h1, h2⟩ := hb
  norm_num at h1 h2 l3 g1 g2 ⊢
  constructor <;> linarith

theorem square_tail : (1 / 16385 - 1 / 2147483648 : ℝ) ≤ ∑ m ∈ Ico (α := ℕ) (2 ^ 14 + 1) (2147483647 + 1), 1 / (m : ℝ) ^ 2 := by
  have h := (Rat.cast_le (K := ℝ)).2 (inv_sq_ge (2 ^ 14 + 1) (2147483647 + 1) (by norm_num) (by norm_num))
  push_cast at h
  norm_num at h ⊢
  linarith

theorem psum_check : ∀ i < 44, psumLo.getD (i + 4) 0 + 1000000000000000000 ≤ floorList.getD (i + 3) 0 ∧
    (floorList.getD (i + 3) 0 + 1024) * 1024 ^ (i + 3) + 1000000000000000000 ≤ (psumHi.getD (i + 4) 0 + 1000000000000000000) * 1024 ^ (i + 3) := by
  decide +kernel

theorem psum_bounds (i : Nat) (h1 : 1 ≤ i) (h2 : i < 48) : (psumLo.getD i 0 : ℝ) ≤ 1000000000000000000 * psum i 2147483647 ∧
    1000000000000000000 * psum i 2147483647 ≤ (psumHi.getD i 0 : ℝ) := by
  have cS : ((1000000000000000000 : ℕ) : ℝ) = 1000000000000000000 := by norm_num
  rcases Nat.lt_or_ge i 4 with h | h
  · have f := floor_head (i - 1) (by omega)
    rw [Nat.sub_add_cancel h1] at f
    interval_cases i
    · have p := psum_parts _ 1 14 2147483647 _ _ _ f (by norm_num) harmonic_tail.1 harmonic_tail.2
      rw [cS] at p
      simp only [floorList, psumLo, psumHi, List.getD_cons_zero, List.getD_cons_succ] at p ⊢
      generalize (psum 1 2147483647 : ℝ) = P at *
      obtain ⟨p1, p2⟩ := p
      norm_num at p1 p2 ⊢
      constructor <;> linarith
    · have p := psum_parts _ 2 14 2147483647 _ _ _ f (by norm_num) square_tail (pow_tail (2 ^ 14) 2147483647 0 (by norm_num) (by norm_num))
      rw [cS] at p
      simp only [floorList, psumLo, psumHi, List.getD_cons_zero, List.getD_cons_succ] at p ⊢
      generalize (psum 2 2147483647 : ℝ) = P at *
      obtain ⟨p1, p2⟩ := p
      norm_num at p1 p2 ⊢
      constructor <;> linarith
    · have p := psum_parts _ 3 14 2147483647 _ 0 _ f (by norm_num) (Finset.sum_nonneg fun m _ => by positivity)
        (pow_tail (2 ^ 14) 2147483647 1 (by norm_num) (by norm_num))
      rw [cS] at p
      simp only [floorList, psumLo, psumHi, List.getD_cons_zero, List.getD_cons_succ] at p ⊢
      generalize (psum 3 2147483647 : ℝ) = P at *
      obtain ⟨p1, p2⟩ := p
      norm_num at p1 p2 ⊢
      constructor <;> linarith
  · obtain ⟨k, rfl⟩ : ∃ k, i = k + 4 := ⟨i - 4, by omega⟩
    have p := psum_parts _ (k + 4) 10 2147483647 _ 0 _ (floor_rest k (by omega)) (by norm_num) (Finset.sum_nonneg fun m _ => by positivity)
      (pow_tail (2 ^ 10) 2147483647 (k + 2) (by norm_num) (by norm_num))
    obtain ⟨c1, c2⟩ := psum_check k (by omega)
    generalize psumLo.getD (k + 4) 0 = a at *
    generalize psumHi.getD (k + 4) 0 = b at *
    generalize floorList.getD (k + 3) 0 = c at *
    have d1 : (a : ℝ) + 1000000000000000000 ≤ c := by exact_mod_cast c1
    have d2 : ((c : ℝ) + 1024) * 1024 ^ (k + 3) + 1000000000000000000 ≤ (b + 1000000000000000000) * 1024 ^ (k + 3) := by exact_mod_cast c2
    have c10 : ((2 ^ 10 : ℕ) : ℝ) = 1024 := by norm_num
    have c10' : (2 : ℝ) ^ 10 = 1024 := by norm_num
    rw [cS, c10, c10', mul_zero, add_zero, show k + 2 + 1 = k + 3 from rfl] at p
    have q : (0 : ℝ) < 1024 ^ (k + 3) := by positivity
    generalize (1024 : ℝ) ^ (k + 3) = w at *
    generalize (psum (k + 4) 2147483647 : ℝ) = P at *
    refine ⟨by linarith [p.1], p.2.trans ?_⟩
    rw [mul_one_div, ← sub_nonneg]
    have : (0 : ℝ) ≤ ((b + 1000000000000000000) * w - (c + 1024) * w - 1000000000000000000) / w := div_nonneg (by linarith) q.le
    have e : ((b + 1000000000000000000) * w - (c + 1024) * w - 1000000000000000000) / w = b - (c + 1024 - 1000000000000000000 + 1000000000000000000 / w) := by
      field_simp
      ring
    rwa [e] at this

theorem hsum_nonneg : ∀ j k, 0 ≤ hsum j k
  | 0, _ => zero_le_one
  | j + 1, k => by
    rw [hsum]
    exact Finset.sum_nonneg fun i _ => div_nonneg (hsum_nonneg j i) (Nat.cast_nonneg _)

theorem hsum_bounds : ∀ j < 47, (hsumLo.getD j 0 : ℝ) ≤ 10000000000 * hsum j 2147483647 ∧
    10000000000 * hsum j 2147483647 ≤ (hsumHi.getD j 0 : ℝ) := by
  intro j
  induction j using Nat.strong_induction_on with
  | _ j ih =>
    intro hj
    rcases j with - | j
    · have a : hsumLo.getD 0 0 = 10000000000 := rfl
      have b : hsumHi.getD 0 0 = 10000000000 := rfl
      have c : hsum 0 2147483647 = 1 := rfl
      rw [a, b, c]
      norm_num
    · have c1 := hsum_check_lo j (by omega)
      have c2 := hsum_check_hi j (by omega)
      have nw := newton j (k := 2147483647) (by norm_num)
      have nw' : ((j : ℝ) + 1) * (hsum (j + 1) 2147483647 : ℝ) = ∑ i ∈ range (j + 1), (psum (i + 1) 2147483647 : ℝ) * (hsum (j - i) 2147483647 : ℝ) := by
        exact_mod_cast nw
      have c1' : (hsumLo.getD (j + 1) 0 : ℝ) * (((j : ℝ) + 1) * 1000000000000000000) ≤ ∑ i ∈ range (j + 1), (psumLo.getD (i + 1) 0 : ℝ) * (hsumLo.getD (j - i) 0 : ℝ) := by
        exact_mod_cast c1
      have c2' : ∑ i ∈ range (j + 1), (psumHi.getD (i + 1) 0 : ℝ) * (hsumHi.getD (j - i) 0 : ℝ) ≤ (hsumHi.getD (j + 1) 0 : ℝ) * (((j : ℝ) + 1) * 1000000000000000000) := by
        exact_mod_cast c2
      have m1 : ∑ i ∈ range (j + 1), (psumLo.getD (i + 1) 0 : ℝ) * (hsumLo.getD (j - i) 0 : ℝ) ≤
          ∑ i ∈ range (j + 1), (1000000000000000000 * (psum (i + 1) 2147483647 : ℝ)) * (10000000000 * (hsum (j - i) 2147483647 : ℝ)) := by
        refine Finset.sum_le_sum fun i hi => ?_
        have hi' := mem_range.1 hi
        have hp := psum_bounds (i + 1) (by omega) (by omega)
        have hh := ih (j - i) (by omega) (by omega)
        exact mul_le_mul hp.1 hh.1 (Nat.cast_nonneg _) ((Nat.cast_nonneg _).trans hp.1)
      have m2 : ∑ i ∈ range (j + 1), (1000000000000000000 * (psum (i + 1) 2147483647 : ℝ)) * (10000000000 * (hsum (j - i) 2147483647 : ℝ)) ≤
          ∑ i ∈ range (j + 1), (psumHi.getD (i + 1) 0 : ℝ) * (hsumHi.getD (j - i) 0 : ℝ) := by
        refine Finset.sum_le_sum fun i hi => ?_
        have hi' := mem_range.1 hi
        have hp := psum_bounds (i + 1) (by omega) (by omega)
        have hh := ih (j - i) (by omega) (by omega)
        exact mul_le_mul hp.2 hh.2 ((Nat.cast_nonneg _).trans hh.1) (Nat.cast_nonneg _)
      have e : ∑ i ∈ range (j + 1), (1000000000000000000 * (psum (i + 1) 2147483647 : ℝ)) * (10000000000 * (hsum (j - i) 2147483647 : ℝ)) =
          10000000000 * (hsum (j + 1) 2147483647 : ℝ) * (((j : ℝ) + 1) * 1000000000000000000) := by
        rw [show 10000000000 * (hsum (j + 1) 2147483647 : ℝ) * (((j : ℝ) + 1) * 1000000000000000000) =
          10000000000 * 1000000000000000000 * (((j : ℝ) + 1) * (hsum (j + 1) 2147483647 : ℝ)) by ring, nw', Finset.mul_sum]
        exact Finset.sum_congr rfl fun i _ => by ring
      rw [e] at m1 m2
      have q : (0 : ℝ) < ((j : ℝ) + 1) * 1000000000000000000 := by positivity
      exact ⟨le_of_mul_le_mul_right (c1'.trans m1) q, le_of_mul_le_mul_right (m2.trans c2') q⟩

end Dh
