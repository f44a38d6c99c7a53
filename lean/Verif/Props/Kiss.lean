import Verif.Model.Kiss
import Verif.Proof.XorShift
import Mathlib.Data.Fintype.EquivFin
import Mathlib.Logic.Function.Iterate
/-
Properties C22 (XOR), C23 (kiss) and the superkiss and kiss parts of C24, C25.
-/
set_option linter.unusedSimpArgs false
namespace Dh

/-! ### C23: kiss -/

theorem kissT_exact (s : KissS) : (kissT s).toNat = 4294584393 * s.z.toNat + s.c.toNat := by
  unfold kissT
  simp only [BitVec.toNat_add, BitVec.toNat_mul, BitVec.truncate_eq_setWidth, BitVec.zeroExtend, BitVec.toNat_setWidth, BitVec.toNat_ofNat]
  have h1 := s.z.isLt
  have h2 := s.c.isLt
  have e : (4294584393 : Nat) % 2 ^ 64 = 4294584393 := by decide
  rw [e, Nat.mod_eq_of_lt (show s.z.toNat < 2 ^ 64 by omega), Nat.mod_eq_of_lt (show s.c.toNat < 2 ^ 64 by omega)]
  rw [Nat.mod_eq_of_lt (show 4294584393 * s.z.toNat < 2 ^ 64 by omega)]
  exact Nat.mod_eq_of_lt (by omega)

theorem kissStep_z (s : KissS) : (kissStep s).z.toNat = (4294584393 * s.z.toNat + s.c.toNat) % 2 ^ 32 := by
  unfold kissStep
  simp only [BitVec.truncate_eq_setWidth, BitVec.toNat_setWidth, kissT_exact]

theorem kissStep_c (s : KissS) : (kissStep s).c.toNat = (4294584393 * s.z.toNat + s.c.toNat) / 2 ^ 32 := by
  unfold kissStep
  simp only [BitVec.truncate_eq_setWidth, BitVec.toNat_setWidth, BitVec.toNat_ushiftRight, kissT_exact, Nat.shiftRight_eq_div_pow]
  have h1 := s.z.isLt
  have h2 := s.c.isLt
  exact Nat.mod_eq_of_lt (by omega)

/-- What the theory of the generator needs of a state: xorshift part nonzero, carry below the
multiplier, and the multiply-with-carry pair at neither of its two fixed points. -/
def KissGood (s : KissS) : Prop :=
  s.y ≠ 0 ∧ s.c.toNat < 4294584393 ∧ ¬ (s.z.toNat = 0 ∧ s.c.toNat = 0) ∧
  ¬ (s.z.toNat = 2 ^ 32 - 1 ∧ s.c.toNat = 4294584393 - 1)

theorem kissY_inj (y y' : UInt) (h : kissY y = kissY y') : y = y' := by
  unfold kissY at h
  exact xorshl_inj 5 (by omega) _ _ (xorshr_inj 7 (by omega) _ _ (xorshl_inj 22 (by omega) _ _ h))

theorem kissStep_good (s : KissS) (h : KissGood s) : KissGood (kissStep s) := by
  obtain ⟨h1, h2, h3, h4⟩ := h
  have hz := s.z.isLt
  refine ⟨?_, ?_, ?_, ?_⟩
  · intro hy
    apply h1
    apply kissY_inj
    have : kissY 0 = 0 := by decide
    rw [this]
    exact hy
  · rw [kissStep_c]; omega
  · rw [kissStep_c, kissStep_z]; omega
  · rw [kissStep_c, kissStep_z]; omega

theorem mul_odd_inj (a : UInt) (b : UInt) (hab : b * a = 1#32) (x y : UInt) (h : a * x = a * y) : x = y := by
  have := congrArg (fun t => b * t) h
  simp only [← BitVec.mul_assoc, hab, BitVec.one_mul] at this
  exact this

/-- C23.  The state transition of `kiss` is injective on states with carry below the multiplier:
distinct states never merge. -/
theorem C23_kiss_injective (s s' : KissS) (h : s.c.toNat < 4294584393) (h' : s'.c.toNat < 4294584393)
    (e : kissStep s = kissStep s') : s = s' := by
  have ez : s.z = s'.z ∧ s.c = s'.c := by
    have e1 := kissStep_z s
    have e2 := kissStep_c s
    rw [e, kissStep_z] at e1
    rw [e, kissStep_c] at e2
    have : 4294584393 * s.z.toNat + s.c.toNat = 4294584393 * s'.z.toNat + s'.c.toNat := by omega
    constructor <;> (apply BitVec.eq_of_toNat_eq; omega)
  have ex : s.x = s'.x := by
    have := congrArg KissS.x e
    simp only [kissStep] at this
    exact mul_odd_inj 314527869#32 1644210389#32 (by decide) _ _ ((BitVec.add_left_inj _ ).1 this)
  have ey : s.y = s'.y := kissY_inj _ _ (congrArg KissS.y e)
  cases s; cases s'; simp_all

theorem kissSet_inv (seed : Src) (fuel : Nat) (s : KissS) (h : kissSet seed fuel = .ok s) :
    ∃ y i, kissFindY seed fuel 1 = .ok (y, i) ∧
      s = ⟨seed 0, y, seed i, BitVec.ofNat 32 ((seed (i + 1)).toNat % 698769068 + 1)⟩ := by
  unfold kissSet at h
  generalize kissFindY seed fuel 1 = r at *
  cases r with
  | ok a =>
    simp only [Res.bind_ok, Res.ok.injEq] at h
    exact ⟨a.1, a.2, rfl, h.symm⟩
  | _ => cases h

theorem kissGood_mk (x y z c : UInt) (hy : y ≠ 0) (h1 : 0 < c.toNat) (h2 : c.toNat < 4294584392) : KissGood ⟨x, y, z, c⟩ := by
  refine ⟨hy, ?_, ?_, ?_⟩ <;> simp only <;> omega

theorem kissGood_seed (x y z : UInt) (w : Nat) (hy : y ≠ 0) : KissGood ⟨x, y, z, BitVec.ofNat 32 (w % 698769068 + 1)⟩ := by
  have hw : w % 698769068 < 698769068 := Nat.mod_lt _ (by omega)
  generalize w % 698769068 = v at *
  have : (BitVec.ofNat 32 (v + 1)).toNat = v + 1 := by
    rw [BitVec.toNat_ofNat]; exact Nat.mod_eq_of_lt (by omega)
  exact kissGood_mk _ _ _ _ hy (by omega) (by omega)

theorem kissDraws_zero (s : KissS) : (kissDraws 0 s).2 = s := by rw [kissDraws]
theorem kissDraws_succ (n : Nat) (s : KissS) : (kissDraws (n + 1) s).2 = (kissDraws n (kissStep s)).2 := by
  rw [kissDraws]; rfl

theorem kissDraws_good (n : Nat) : ∀ s, KissGood s → KissGood (kissDraws n s).2 := by
  induction n with
  | zero => intro s h; rw [kissDraws_zero]; exact h
  | succ n ih => intro s h; rw [kissDraws_succ]; exact ih _ (kissStep_good s h)

theorem kissFindY_ne (seed : Src) (y : UInt) : ∀ fuel i j, kissFindY seed fuel i = .ok (y, j) → y ≠ 0 := by
  intro fuel
  induction fuel with
  | zero => intro i j h; simp [kissFindY] at h
  | succ fuel ih =>
    intro i j h
    rw [kissFindY] at h
    split at h
    · next hn => injection h with h; injection h with h _; rw [← h]; exact hn
    · exact ih _ _ h

/-- C23.  Whatever values the seeding generator delivers, if seeding ends then from then on, after
any number of draws, the state is good; the 64-bit product never overflows and the new carry and
residue are its exact quotient and remainder. -/
theorem C23_kiss_good (seed : Src) (fuel : Nat) (s : KissS) (h : kissSet seed fuel = .ok s) (n : Nat) :
    let t := (kissDraws n s).2
    KissGood t ∧ 4294584393 * t.z.toNat + t.c.toNat < 2 ^ 64 ∧
      (kissStep t).c.toNat * 2 ^ 32 + (kissStep t).z.toNat = 4294584393 * t.z.toNat + t.c.toNat := by
  have h0 : KissGood s := by
    obtain ⟨y, i, h1, rfl⟩ := kissSet_inv seed fuel s h
    exact kissGood_seed _ _ _ _ (kissFindY_ne _ _ _ _ _ h1)
  have hg := kissDraws_good n s h0
  refine ⟨hg, ?_, ?_⟩
  · have := (kissDraws n s).2.z.isLt
    have := (kissDraws n s).2.c.isLt
    omega
  · rw [kissStep_c, kissStep_z]; omega

/-- C23.  Seeding ends as soon as the seeding generator has delivered one nonzero value after its
first. -/
theorem C23_kiss_seeds (seed : Src) (k : Nat) (h : seed (k + 1) ≠ 0) : ∃ s, kissSet seed (k + 1) = .ok s := by
  have : ∀ fuel i, 0 < fuel → seed (i + fuel - 1) ≠ 0 → ∃ y j, kissFindY seed fuel i = .ok (y, j) := by
    intro fuel
    induction fuel with
    | zero => intro i h; omega
    | succ fuel ih =>
      intro i _ h
      rw [kissFindY]
      split
      · exact ⟨_, _, rfl⟩
      · next hz =>
        have hf : 0 < fuel := by
          rcases Nat.eq_zero_or_pos fuel with h0 | h0
          · subst h0; exfalso; apply hz; simpa using h
          · exact h0
        exact ih (i + 1) hf (by rw [show i + 1 + fuel - 1 = i + (fuel + 1) - 1 by omega]; exact h)
  obtain ⟨y, j, hy⟩ := this (k + 1) 1 (by omega) (by rw [show 1 + (k + 1) - 1 = k + 1 by omega]; exact h)
  unfold kissSet
  rw [hy]
  exact ⟨_, rfl⟩

example : kissSet (fun i => [5, 0, 7, 9, 11].getD i 0) 3 = .ok ⟨5, 7, 9, 12⟩ := by decide
example : (kissGet ⟨5, 7, 9, 12⟩).1 = 0x971ad47b := by decide

/-! ### The output of kiss -/

namespace Spec

/-- The three sequences of the KISS generator of Marsaglia as arithmetic on natural numbers: a linear
congruential sequence modulo `2^32`, ... -/
def kissLcg (x : Nat) : Nat := (314527869 * x + 1234567) % 2 ^ 32

/-- ... a multiply-with-carry sequence with multiplier 4294584393 on pairs of value and carry ... -/
def kissMwc (p : Nat × Nat) : Nat × Nat := ((4294584393 * p.1 + p.2) % 2 ^ 32, (4294584393 * p.1 + p.2) / 2 ^ 32)

/-- ... and a xorshift sequence with shifts 5, 7 and 22. -/
def kissXs (y : Nat) : Nat :=
  let a := y ^^^ y * 2 ^ 5 % 2 ^ 32
  let b := a ^^^ a / 2 ^ 7
  b ^^^ b * 2 ^ 22 % 2 ^ 32

/-- Output `k` from the state `(x, y, z, c)`. -/
def kissOut (x y z c k : Nat) : Nat :=
  (kissLcg^[k + 1] x + kissXs^[k + 1] y + (kissMwc^[k + 1] (z, c)).1) % 2 ^ 32

end Spec

theorem kissY_toNat (y : UInt) : (kissY y).toNat = Spec.kissXs y.toNat := by
  unfold kissY Spec.kissXs
  simp only [BitVec.toNat_xor, BitVec.toNat_shiftLeft, BitVec.toNat_ushiftRight, Nat.shiftLeft_eq, Nat.shiftRight_eq_div_pow]

theorem kissDraws_components (F G : Nat → Nat) (H : Nat × Nat → Nat × Nat)
    (hF : ∀ s, (kissStep s).x.toNat = F s.x.toNat) (hG : ∀ s, (kissStep s).y.toNat = G s.y.toNat)
    (hH : ∀ s, ((kissStep s).z.toNat, (kissStep s).c.toNat) = H (s.z.toNat, s.c.toNat)) (n : Nat) :
    ∀ s : KissS, (kissDraws n s).1.map BitVec.toNat = (List.range n).map fun k =>
      (F^[k + 1] s.x.toNat + G^[k + 1] s.y.toNat + (H^[k + 1] (s.z.toNat, s.c.toNat)).1) % 2 ^ 32 := by
  induction n with
  | zero => intro s; simp [kissDraws]
  | succ n ih =>
    intro s
    have e : (kissDraws (n + 1) s).1 = (kissGet s).1 :: (kissDraws n (kissStep s)).1 := by
      rw [kissDraws]; rfl
    have e1 : (kissGet s).1 = (kissStep s).x + (kissStep s).y + (kissStep s).z := rfl
    rw [e, List.map_cons, ih, List.range_succ_eq_map, List.map_cons, List.map_map, e1]
    have hF := hF s
    have hG := hG s
    have hH := hH s
    generalize kissStep s = s' at hF hG hH ⊢
    refine List.cons_eq_cons.2 ⟨?_, ?_⟩
    · rw [BitVec.toNat_add, BitVec.toNat_add, Nat.mod_add_mod, hF, hG, Nat.zero_add, Function.iterate_one,
        Function.iterate_one, Function.iterate_one, ← hH]
    · apply List.map_congr_left
      intro k _
      simp only [Function.comp, hF, hG, hH, Nat.succ_eq_add_one, Function.iterate_succ_apply]

/-- C25 (kiss).  The values drawn are the sums modulo `2^32` of the three component sequences, each
started from its part of the state. -/
theorem C25_kiss (n : Nat) (s : KissS) : (kissDraws n s).1.map BitVec.toNat =
    (List.range n).map (Spec.kissOut s.x.toNat s.y.toNat s.z.toNat s.c.toNat) := by
  refine kissDraws_components Spec.kissLcg Spec.kissXs Spec.kissMwc (fun s => ?_) (fun s => kissY_toNat s.y) (fun s => ?_) n s
  · simp only [kissStep, Spec.kissLcg, BitVec.toNat_add, BitVec.toNat_mul, BitVec.toNat_ofNat]
    omega
  · rw [kissStep_z, kissStep_c, Spec.kissMwc]

/-- The first three values from the state `(1, 2, 3, 4)`. -/
example : (kissDraws 3 ⟨1, 2, 3, 4⟩).1 = [591437861, 2911337254, 1771773963] := by decide +kernel

/-! ### superkiss -/

/-- One table entry: new value and new carry (as numbers). -/
def cmwcStep (q c : Nat) : Nat × Nat := (2 ^ 32 - 1 - (7010176 * q + c) % 2 ^ 32, (7010176 * q + c) / 2 ^ 32)

theorem sk_t (q carry : UInt) (h : carry.toNat < 7010176) :
    (7010176#64 * q.zeroExtend 64 + carry.zeroExtend 64).toNat = 7010176 * q.toNat + carry.toNat := by
  simp only [BitVec.toNat_add, BitVec.toNat_mul, BitVec.truncate_eq_setWidth, BitVec.zeroExtend, BitVec.toNat_setWidth, BitVec.toNat_ofNat]
  have h1 := q.isLt
  have e : (7010176 : Nat) % 2 ^ 64 = 7010176 := by decide
  rw [e, Nat.mod_eq_of_lt (show q.toNat < 2 ^ 64 by omega), Nat.mod_eq_of_lt (show carry.toNat < 2 ^ 64 by omega)]
  rw [Nat.mod_eq_of_lt (show 7010176 * q.toNat < 2 ^ 64 by omega)]
  exact Nat.mod_eq_of_lt (by omega)

/-- The pure form of the refill loop. -/
def skPure : List UInt → UInt → List UInt × UInt
  | [], c => ([], c)
  | q :: Q, c =>
    let t : BitVec 64 := 7010176#64 * q.zeroExtend 64 + c.zeroExtend 64
    let r := skPure Q ((t >>> 32).truncate 32)
    ((~~~t).truncate 32 :: r.1, r.2)

theorem skRefillLoop_eq : ∀ (todo i : Nat) (Q : List UInt) (c : UInt), i + todo = Q.length →
    skRefillLoop todo i Q c = .ok (Q.take i ++ (skPure (Q.drop i) c).1, (skPure (Q.drop i) c).2) := by
  intro todo
  induction todo with
  | zero => intro i Q c h; rw [skRefillLoop, List.drop_of_length_le (by omega), List.take_of_length_le (by omega)]; simp [skPure]
  | succ todo ih =>
    intro i Q c h
    rw [skRefillLoop, rd_ok (by omega)]
    simp only [Res.bind_ok, wr, if_pos (show i < Q.length by omega)]
    rw [ih (i + 1) _ _ (by simp; omega)]
    rw [List.drop_eq_getElem_cons (show i < Q.length by omega), skPure]
    simp only
    rw [List.drop_set_of_lt (by omega), List.take_succ_eq_append_getElem (by simp; omega)]
    simp [List.take_set_of_le]

/-- The carry after `r` entries. -/
def skCarry (Q : List UInt) (c : UInt) (r : Nat) : UInt := (skPure (Q.take r) c).2

theorem skPure_length : ∀ (Q : List UInt) (c : UInt), (skPure Q c).1.length = Q.length := by
  intro Q
  induction Q with
  | nil => intro c; rfl
  | cons q Q ih => intro c; simp [skPure, ih]

theorem skPure_spec : ∀ (Q : List UInt) (c : UInt), c.toNat < 7010176 →
    (skPure Q c).2.toNat < 7010176 ∧ skCarry Q c 0 = c ∧ skCarry Q c Q.length = (skPure Q c).2 ∧
    ∀ r, ∀ h : r < Q.length, (skCarry Q c r).toNat < 7010176 ∧
      7010176 * Q[r].toNat + (skCarry Q c r).toNat =
        (skCarry Q c (r + 1)).toNat * 2 ^ 32 + (2 ^ 32 - 1 - ((skPure Q c).1[r]'(by rw [skPure_length]; exact h)).toNat) := by
  intro Q
  induction Q with
  | nil => intro c hc; simp [skPure, skCarry, hc]
  | cons q Q ih =>
    intro c hc
    have ht := sk_t q c hc
    have hq := q.isLt
    obtain ⟨t, htt⟩ : ∃ t, t = 7010176#64 * q.zeroExtend 64 + c.zeroExtend 64 := ⟨_, rfl⟩
    rw [← htt] at ht
    have hc' : ((t >>> 32).truncate 32 : UInt).toNat = (7010176 * q.toNat + c.toNat) / 2 ^ 32 := by
      simp only [BitVec.truncate_eq_setWidth, BitVec.toNat_setWidth, BitVec.toNat_ushiftRight, ht, Nat.shiftRight_eq_div_pow]
      exact Nat.mod_eq_of_lt (by omega)
    have hq' : ((~~~t).truncate 32 : UInt).toNat = 2 ^ 32 - 1 - (7010176 * q.toNat + c.toNat) % 2 ^ 32 := by
      simp only [BitVec.truncate_eq_setWidth, BitVec.toNat_setWidth, BitVec.toNat_not, ht]
      omega
    have hcc : ((t >>> 32).truncate 32 : UInt).toNat < 7010176 := by rw [hc']; omega
    obtain ⟨i1, i2, i3, i4⟩ := ih ((t >>> 32).truncate 32) hcc
    have hsucc : ∀ r, skCarry (q :: Q) c (r + 1) = skCarry Q ((t >>> 32).truncate 32) r := by
      intro r; unfold skCarry; rw [List.take_succ_cons, skPure, ← htt]
    refine ⟨?_, ?_, ?_, ?_⟩
    · rw [skPure, ← htt]; exact i1
    · unfold skCarry; rw [List.take_zero, skPure]
    · rw [List.length_cons, hsucc, i3, skPure, ← htt]
    · intro r hr
      cases r with
      | zero =>
        rw [hsucc, i2]
        have e0 : skCarry (q :: Q) c 0 = c := by unfold skCarry; rw [List.take_zero, skPure]
        refine ⟨by rw [e0]; exact hc, ?_⟩
        rw [e0, hc']
        simp only [skPure, ← htt, List.getElem_cons_zero, hq']
        omega
      | succ r =>
        have := i4 r (by simpa using hr)
        rw [hsucc, hsucc]
        simp only [skPure, ← htt, List.getElem_cons_succ]
        exact this

/-- Table and carry after `b` refills. -/
def skBlock (Q : List UInt) (c : UInt) : Nat → List UInt × UInt
  | 0 => (Q, c)
  | b + 1 => skPure (skBlock Q c b).1 (skBlock Q c b).2

theorem skBlock_length (Q : List UInt) (c : UInt) (b : Nat) : (skBlock Q c b).1.length = Q.length := by
  induction b with
  | zero => rfl
  | succ b ih => rw [skBlock, skPure_length, ih]

theorem skBlock_carry (Q : List UInt) (c : UInt) (hc : c.toNat < 7010176) (b : Nat) : (skBlock Q c b).2.toNat < 7010176 := by
  induction b with
  | zero => exact hc
  | succ b ih => rw [skBlock]; exact (skPure_spec _ _ ih).1

/-- The `k`-th state of the two small components. -/
def skXcng (k : Nat) : UInt := (fun x => 69069#32 * x + 123#32)^[k] 1236789#32
def skXsN (k : Nat) : UInt := skXs^[k] 521288629#32

/-- The state after `k` draws. -/
def skAfter (seed : Src) (k : Nat) : SKS :=
  let Q := (List.range skQmax).map seed
  let b := (k + skQmax - 1) / skQmax
  ⟨(skBlock Q 362436 b).1, if k = 0 then skQmax else (k - 1) % skQmax + 1, (skBlock Q 362436 b).2, skXcng k, skXsN k⟩

theorem skGet_after (seed : Src) (k : Nat) :
    ∃ q : UInt, ((skBlock ((List.range skQmax).map seed) 362436 (k / skQmax + 1)).1)[k % skQmax]? = some q ∧
      skGet (skAfter seed k) = .ok (q.zeroExtend 64 + (skXcng (k + 1)).zeroExtend 64 + (skXsN (k + 1)).zeroExtend 64, skAfter seed (k + 1)) := by
  have hN : skQmax = 41790 := rfl
  have hl : ∀ b, (skBlock ((List.range skQmax).map seed) 362436 b).1.length = skQmax := by
    intro b; rw [skBlock_length]; simp
  have hlt : k % skQmax < skQmax := Nat.mod_lt _ (by omega)
  have hx : 69069#32 * (skXcng k) + 123#32 = skXcng (k + 1) := by
    unfold skXcng; rw [Function.iterate_succ_apply']
  have hs : skXs (skXsN k) = skXsN (k + 1) := by
    unfold skXsN; rw [Function.iterate_succ_apply']
  refine ⟨((skBlock ((List.range skQmax).map seed) 362436 (k / skQmax + 1)).1)[k % skQmax]'(by rw [hl]; exact hlt), ?_, ?_⟩
  · simp [hl, hlt]
  · unfold skGet
    by_cases hk : k % skQmax = 0
    · -- refill
      have hidx : ¬ (skAfter seed k).indx < skQmax := by
        unfold skAfter
        simp only
        split
        · omega
        · have : (k - 1) % skQmax + 1 = skQmax := by rw [hN] at hk ⊢; omega
          omega
      have hb : (k + skQmax - 1) / skQmax = k / skQmax := by rw [hN] at hk ⊢; omega
      have hb1 : (k + 1 + skQmax - 1) / skQmax = k / skQmax + 1 := by rw [hN] at hk ⊢; omega
      have hi1 : k % skQmax + 1 = 1 := by omega
      simp only
      rw [if_neg hidx]
      unfold skRefill
      have hQ : (skAfter seed k).Q = (skBlock ((List.range skQmax).map seed) 362436 (k / skQmax)).1 := by
        unfold skAfter; simp only; rw [hb]
      have hC : (skAfter seed k).carry = (skBlock ((List.range skQmax).map seed) 362436 (k / skQmax)).2 := by
        unfold skAfter; simp only; rw [hb]
      simp only
      rw [skRefillLoop_eq skQmax 0 _ _ (by rw [hQ, hl]; omega)]
      simp only [List.take_zero, List.nil_append, List.drop_zero, hQ, hC, Res.bind_ok]
      have hsk : skPure (skBlock ((List.range skQmax).map seed) 362436 (k / skQmax)).1 (skBlock ((List.range skQmax).map seed) 362436 (k / skQmax)).2
        = skBlock ((List.range skQmax).map seed) 362436 (k / skQmax + 1) := rfl
      rw [hsk, rd_ok (by rw [hl]; omega)]
      simp only [Res.bind_ok]
      have hxc : (skAfter seed k).xcng = skXcng k := rfl
      have hxs : (skAfter seed k).xs = skXsN k := rfl
      rw [hxc, hxs, hx, hs]
      congr 2
      · congr 2
        simp only [hk]
      · unfold skAfter
        simp only
        rw [hb1, if_neg (by omega), show k + 1 - 1 = k by omega, hi1]
    · have hk0 : k ≠ 0 := by intro h; subst h; simp at hk
      have hidx : (skAfter seed k).indx = k % skQmax := by
        unfold skAfter
        simp only [if_neg hk0]
        rw [hN] at hk ⊢; omega
      have hb : (k + skQmax - 1) / skQmax = k / skQmax + 1 := by rw [hN] at hk ⊢; omega
      have hb1 : (k + 1 + skQmax - 1) / skQmax = k / skQmax + 1 := by rw [hN] at hk ⊢; omega
      have hQ : (skAfter seed k).Q = (skBlock ((List.range skQmax).map seed) 362436 (k / skQmax + 1)).1 := by
        unfold skAfter; simp only; rw [hb]
      simp only
      rw [if_pos (by rw [hidx]; exact hlt), rd_ok (by rw [hQ, hl, hidx]; exact hlt)]
      simp only [Res.bind_ok]
      have hxc : (skAfter seed k).xcng = skXcng k := rfl
      have hxs : (skAfter seed k).xs = skXsN k := rfl
      rw [hxc, hxs, hx, hs]
      congr 2
      · congr 2
        simp only [hQ, hidx]
      · unfold skAfter
        simp only
        rw [hb1, hb, if_neg hk0, if_neg (by omega), show k + 1 - 1 = k by omega]
        congr 1
        rw [hN] at hk ⊢; omega

/-- The seeded state. -/
theorem skAfter_zero (seed : Src) : skAfter seed 0 = skSet seed := by
  have : (0 + skQmax - 1) / skQmax = 0 := by decide
  unfold skAfter
  simp only [this, skBlock, if_pos]
  unfold skSet
  congr 1

/-- C25 (superkiss).  From any seed and for any number of draws the generator never leaves its
table; draw `k` takes entry `k mod 41790` of the table, and the table is refilled exactly at the
draws whose number is a multiple of 41790.  The tables are those of the complementary
multiply-with-carry recurrence with lag 41790: there are sequences `q` (starting with the seed
values) and `c` (starting with 362436) satisfying the recurrence, and draw `k` returns
`q (k + 41790)` plus the states of the other two components. -/
theorem C25_superkiss (seed : Src) :
    ∃ q c : Nat → Nat, (∀ j < 41790, q j = (seed j).toNat) ∧ c 0 = 362436 ∧ (∀ j, q j < 2 ^ 32) ∧ (∀ j, c j < 7010176) ∧
      (∀ j, 7010176 * q j + c j = c (j + 1) * 2 ^ 32 + (2 ^ 32 - 1 - q (j + 41790))) ∧
      ∀ n, ∃ s, skDraws n (skSet seed) =
        .ok ((List.range n).map fun k => BitVec.ofNat 64 (q (k + 41790) + (skXcng (k + 1)).toNat + (skXsN (k + 1)).toNat), s) ∧
        s.Q.length = 41790 ∧ 1 ≤ s.indx ∧ s.indx ≤ 41790 ∧ (s.indx = 41790 ↔ n % 41790 = 0) := by
  have hN : skQmax = 41790 := rfl
  obtain ⟨Q, hQ⟩ : ∃ Q, Q = (List.range skQmax).map seed := ⟨_, rfl⟩
  have hl : ∀ b, (skBlock Q 362436 b).1.length = 41790 := by
    intro b; rw [skBlock_length, hQ]; simp [hN]
  have hcar : ∀ b, (skBlock Q 362436 b).2.toNat < 7010176 := skBlock_carry Q 362436 (by decide)
  have hm : ∀ j, j % 41790 < 41790 := fun j => Nat.mod_lt _ (by omega)
  refine ⟨fun j => ((skBlock Q 362436 (j / 41790)).1[j % 41790]'(by rw [hl]; exact hm j)).toNat,
    fun j => (skCarry (skBlock Q 362436 (j / 41790)).1 (skBlock Q 362436 (j / 41790)).2 (j % 41790)).toNat, ?_, ?_, ?_, ?_, ?_, ?_⟩
  · intro j hj
    have e1 : j / 41790 = 0 := by omega
    have e2 : j % 41790 = j := by omega
    simp only [e1, e2, skBlock, hQ]
    simp
  · simp only [skBlock]
    have := (skPure_spec Q 362436 (by decide)).2.1
    rw [show 0 / 41790 = 0 from rfl, show 0 % 41790 = 0 from rfl]
    simp only [skBlock]
    rw [this]
    rfl
  · intro j; exact BitVec.isLt _
  · intro j
    exact ((skPure_spec (skBlock Q 362436 (j / 41790)).1 (skBlock Q 362436 (j / 41790)).2 (hcar (j / 41790))).2.2.2 (j % 41790) (by rw [hl]; exact hm j)).1
  · intro j
    have := ((skPure_spec (skBlock Q 362436 (j / 41790)).1 (skBlock Q 362436 (j / 41790)).2 (hcar (j / 41790))).2.2.2 (j % 41790) (by rw [hl]; exact hm j)).2
    rw [this]
    have e1 : (j + 41790) / 41790 = j / 41790 + 1 := by omega
    have e2 : (j + 41790) % 41790 = j % 41790 := by omega
    have ec : skCarry (skBlock Q 362436 (j / 41790)).1 (skBlock Q 362436 (j / 41790)).2 (j % 41790 + 1) =
        skCarry (skBlock Q 362436 ((j + 1) / 41790)).1 (skBlock Q 362436 ((j + 1) / 41790)).2 ((j + 1) % 41790) := by
      by_cases h : j % 41790 + 1 = 41790
      · have e3 : (j + 1) / 41790 = j / 41790 + 1 := by omega
        have e4 : (j + 1) % 41790 = 0 := by omega
        rw [e3, e4, h]
        have h1 := (skPure_spec (skBlock Q 362436 (j / 41790)).1 _ (hcar (j / 41790))).2.2.1
        rw [hl] at h1
        rw [h1]
        rw [(skPure_spec _ _ (hcar (j / 41790 + 1))).2.1]
        rfl
      · have e3 : (j + 1) / 41790 = j / 41790 := by omega
        have e4 : (j + 1) % 41790 = j % 41790 + 1 := by omega
        rw [e3, e4]
    rw [ec]
    simp only [e1, e2]
    rfl
  · intro n
    have key : ∀ n k, skDraws n (skAfter seed k) =
        .ok ((List.range n).map fun i => BitVec.ofNat 64
          (((skBlock Q 362436 ((k + i + 41790) / 41790)).1[(k + i + 41790) % 41790]'(by rw [hl]; exact hm _)).toNat +
            (skXcng (k + i + 1)).toNat + (skXsN (k + i + 1)).toNat), skAfter seed (k + n)) := by
      intro n
      induction n with
      | zero => intro k; rfl
      | succ n ih =>
        intro k
        obtain ⟨q, g1, g2⟩ := skGet_after seed k
        rw [skDraws, g2]
        simp only [Res.bind_ok]
        rw [ih (k + 1)]
        simp only [Res.bind_ok]
        rw [List.range_succ_eq_map, List.map_cons, List.map_map]
        congr 2
        · congr 1
          · rw [← hQ, hN] at g1
            have e1 : (k + 0 + 41790) / 41790 = k / 41790 + 1 := by omega
            have e2 : (k + 0 + 41790) % 41790 = k % 41790 := by omega
            simp only [e1, e2]
            obtain ⟨_, hq⟩ := List.getElem?_eq_some_iff.1 g1
            rw [hq]
            apply BitVec.eq_of_toNat_eq
            simp only [BitVec.toNat_add, BitVec.truncate_eq_setWidth, BitVec.zeroExtend, BitVec.toNat_setWidth, BitVec.toNat_ofNat, Nat.add_zero]
            have a1 := q.isLt
            have a2 := (skXcng (k + 1)).isLt
            have a3 := (skXsN (k + 1)).isLt
            omega
          · apply List.map_congr_left
            intro i _
            have : k + 1 + i = k + (i + 1) := by omega
            simp only [Function.comp, this, Nat.succ_eq_add_one]
        · congr 1; omega
    have k0 := key n 0
    rw [skAfter_zero] at k0
    simp only [Nat.zero_add] at k0
    refine ⟨skAfter seed n, k0, ?_, ?_, ?_, ?_⟩
    · unfold skAfter; simp only; rw [← hQ, hl]
    · unfold skAfter; simp only; split <;> omega
    · unfold skAfter; simp only; rw [hN]; split <;> omega
    · unfold skAfter; simp only; rw [hN]; split
      · next h => subst h; simp
      · omega

/-- C24 is false of superkiss: with every seed the very first value it returns exceeds the
maximum `UINT_MAX` it advertises. -/
theorem C24_superkiss_out_of_range (seed : Src) :
    ∃ v s, skDraws 1 (skSet seed) = .ok ([v], s) ∧ 2 ^ 32 - 1 < v.toNat := by
  obtain ⟨q, c, -, -, h3, -, -, h6⟩ := C25_superkiss seed
  obtain ⟨s, h, -⟩ := h6 1
  refine ⟨_, s, h, ?_⟩
  have e1 : (skXcng (0 + 1)).toNat = 3819400940 := by decide
  have e2 : (skXsN (0 + 1)).toNat = 1520931387 := by decide
  show _ < (BitVec.ofNat 64 (q (0 + 41790) + (skXcng (0 + 1)).toNat + (skXsN (0 + 1)).toNat)).toNat
  rw [e1, e2, BitVec.toNat_ofNat]
  have := h3 (0 + 41790)
  omega

/-- C24, what does hold of superkiss: no value exceeds three times `UINT_MAX`. -/
theorem C24_superkiss_bound (seed : Src) (n : Nat) :
    ∃ vs s, skDraws n (skSet seed) = .ok (vs, s) ∧ ∀ v ∈ vs, v.toNat ≤ 3 * (2 ^ 32 - 1) := by
  obtain ⟨q, c, -, -, h3, -, -, h6⟩ := C25_superkiss seed
  obtain ⟨s, h, -⟩ := h6 n
  refine ⟨_, s, h, ?_⟩
  intro v hv
  obtain ⟨k, -, rfl⟩ := List.mem_map.1 hv
  rw [BitVec.toNat_ofNat]
  have h1 := h3 (k + 41790)
  have h2 := (skXcng (k + 1)).isLt
  have h4 := (skXsN (k + 1)).isLt
  omega

/-- C23 for the xorshift component of superkiss: it never becomes zero. -/
theorem C23_superkiss_xs (k : Nat) : skXsN k ≠ 0 := by
  have inj : ∀ x y, skXs x = skXs y → x = y := by
    intro x y h
    unfold skXs at h
    exact xorshl_inj 13 (by omega) _ _ (xorshr_inj 17 (by omega) _ _ (xorshr_inj 5 (by omega) _ _ h))
  induction k with
  | zero => decide
  | succ k ih =>
    unfold skXsN at ih ⊢
    rw [Function.iterate_succ_apply']
    intro h
    apply ih
    apply inj
    rw [h]
    decide

/-! ### C22: XOR -/

/-- Exclusive or of one fresh value from every generator of a list. -/
def xorFresh (gs : List (Src × Nat)) : UInt := gs.foldr (fun g v => g.1 g.2 ^^^ v) 0

theorem xorLoop_eq (pre : List (Src × Nat)) : ∀ (gs : List (Src × Nat)) (pre : List (Src × Nat)) (v : UInt),
    xorLoop gs.length pre.length v ⟨pre ++ gs⟩ =
      .ok (v ^^^ xorFresh gs, ⟨pre ++ gs.map fun g => (g.1, g.2 + 1)⟩) := by
  intro gs
  induction gs with
  | nil => intro pre v; simp [xorLoop, xorFresh]
  | cons g gs ih =>
    intro pre v
    rw [List.length_cons, xorLoop]
    unfold xorDraw
    rw [rd_ok (by simp)]
    simp only [List.getElem_append_right (Nat.le_refl _), Nat.sub_self, List.getElem_cons_zero, Res.bind_ok,
      List.set_append_right _ _ (Nat.le_refl _), List.set_cons_zero]
    have := ih (pre ++ [(g.1, g.2 + 1)]) (v ^^^ g.1 g.2)
    simp only [List.append_assoc, List.singleton_append, List.length_append, List.length_singleton] at this
    rw [this]
    simp only [xorFresh, List.foldr_cons, List.map_cons]
    congr 2
    rw [BitVec.xor_assoc]

/-- C22.  What `XOR_get` does with the seeding generator `g0` and the selected
generators `g1 :: gs`: the result is the exclusive or of one value from each selected generator
*and one more value* from the first of them; the others advance by one, the first by two.  So it
is not the exclusive or of one value from each, see `C22_fails`. -/
theorem C22_XOR (g0 g1 : Src × Nat) (gs : List (Src × Nat)) :
    xorGet ⟨g0 :: g1 :: gs⟩ =
      .ok (g1.1 g1.2 ^^^ (g1.1 (g1.2 + 1) ^^^ xorFresh gs),
        ⟨g0 :: (g1.1, g1.2 + 2) :: gs.map fun g => (g.1, g.2 + 1)⟩) := by
  unfold xorGet
  have h1 : xorDraw 1 ⟨g0 :: g1 :: gs⟩ = .ok (g1.1 g1.2, ⟨g0 :: (g1.1, g1.2 + 1) :: gs⟩) := by
    simp [xorDraw, rd]
  rw [h1]
  simp only [Res.bind_ok]
  have := xorLoop_eq [] ((g1.1, g1.2 + 1) :: gs) [g0] (g1.1 g1.2)
  simp only [List.length_cons, List.length_nil, List.singleton_append, Nat.zero_add] at this
  rw [show (g0 :: (g1.1, g1.2 + 1) :: gs).length - 1 = gs.length + 1 by simp, this]
  simp [xorFresh]

/-- C22 is false: for every choice of at least one generator, the first generator advances by two,
and there are generators for which the value differs from the exclusive or of one value each. -/
theorem C22_fails :
    (∀ g0 g1 gs, ∃ v s, xorGet ⟨g0 :: g1 :: gs⟩ = .ok (v, s) ∧ s.gens ≠ (g0 :: (g1 :: gs).map fun g => (g.1, g.2 + 1))) ∧
    (∀ g0 gs, ∃ g1 v s, xorGet ⟨g0 :: g1 :: gs⟩ = .ok (v, s) ∧ v ≠ xorFresh (g1 :: gs)) := by
  constructor
  · intro g0 g1 gs
    refine ⟨_, _, C22_XOR g0 g1 gs, ?_⟩
    simp
  · intro g0 gs
    refine ⟨(fun n => if n = 1 then 1 else 0, 0), _, _, C22_XOR _ _ _, ?_⟩
    simp only [xorFresh, List.foldr_cons]
    intro h
    have h1 := congrArg (fun t => t ^^^ xorFresh gs) h
    simp only [xorFresh, BitVec.xor_assoc, BitVec.xor_self] at h1
    revert h1
    decide

/-- C22.  With no generator selected the code reads an uninitialised entry. -/
theorem C22_no_generator (g0 : Src × Nat) : xorGet ⟨[g0]⟩ = .ub := by
  simp [xorGet, xorDraw, rd]

example : (xorGet ⟨[(fun _ => 0, 0), (fun n => BitVec.ofNat 32 (n + 5), 0), (fun n => BitVec.ofNat 32 (n + 100), 0)]⟩).map
    (fun r => (r.1, r.2.gens.map Prod.snd)) = .ok (5 ^^^ 6 ^^^ 100, [0, 2, 1]) := by decide

end Dh
