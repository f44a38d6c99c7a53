import Verif.Proof.GnuR
import Mathlib.Logic.Function.Iterate
import Mathlib.Tactic.Linarith
import Mathlib.Tactic.NormNum
import Mathlib.Tactic.Positivity
import Mathlib.Algebra.Order.Field.Basic
/-
C54, C55, C65, C66 and the R part of C24 and C26: the generators of rngs_gnu_r.c.
-/
namespace Dh

namespace Spec

/-- The words of the seeding sequence of R: `s` and its images under `x -> 69069 x + 1` modulo `2^32`. -/
def rSeed (s : Nat) : Nat → Nat
  | 0 => s
  | n + 1 => (69069 * rSeed s n + 1) % 2 ^ 32

/-- A nonzero residue made of a seeding word. -/
def residue (w m : Nat) : Nat := if w % m = 0 then 1 else w % m

/-- A step of a 16 bit multiply-with-carry generator: the low half times `a` plus the carry. -/
def mwc (a x : Nat) : Nat := a * (x % 65536) + x / 65536

/-- The Tausworthe step of super-duper. -/
def tausworthe (x : Nat) : Nat :=
  let y := x ^^^ (x / 2 ^ 15)
  y ^^^ (y * 2 ^ 17 % 2 ^ 32)

/-- The recurrence of MT19937 on words: the top bit of one word and the 31 low bits of the next, shifted, with the matrix row
added when the lowest bit is set, and the word 397 places on. -/
def Mt19937 (x : Nat → UInt) : Prop :=
  ∀ k, x (k + 624) = x (k + 397) ^^^
    (((x k).extractLsb' 31 1 ++ (x (k + 1)).extractLsb' 0 31 : BitVec 32) >>> 1 ^^^ if (x (k + 1)).toNat % 2 = 1 then 0x9908b0df#32 else 0#32)

/-- Knuth's lagged Fibonacci recurrence: 30 bit words, `x (i + 100) = x i - x (i + 63)` modulo `2^30`. -/
def Knuth (x : Nat → UInt) : Prop :=
  ∀ i, (x i).toNat < 2 ^ 30 ∧ ((x (i + 100)).toNat + (x (i + 63)).toNat) % 2 ^ 30 = (x i).toNat

/-- What is asked of the rounding of doubles: it is monotone, and it leaves numbers with 53 bits (and a moderate exponent) alone. -/
structure Rounding (rnd : ℚ → ℚ) : Prop where
  mono : ∀ x y, x ≤ y → rnd x ≤ rnd y
  exact : ∀ n : ℤ, |n| ≤ 2 ^ 53 → ∀ e : Nat, e ≤ 1000 → rnd (n / 2 ^ e) = n / 2 ^ e

end Spec

/-- `n` calls of the generator, `gsl_rng_uniform` (rngs_gnu_r.c:382-389). -/
def rUnifs (rnd : ℚ → ℚ) (kind : RKind) : Nat → List UInt → Res (List ℚ × List UInt)
  | 0, vec => .ok ([], vec)
  | n + 1, vec => do
    let (u, vec) ← unifRand rnd kind vec
    let (us, vec) ← rUnifs rnd kind n vec
    .ok (u :: us, vec)

/-- `n` calls of the generator, `gsl_rng_get` (rngs_gnu_r.c:375-380, 495-500, 525-530). -/
def rDraws (rnd : ℚ → ℚ) (kind : RKind) : Nat → List UInt → Res (List Nat × List UInt)
  | 0, vec => .ok ([], vec)
  | n + 1, vec => do
    let (v, vec) ← rRngGet rnd kind vec
    let (vs, vec) ← rDraws rnd kind n vec
    .ok (v :: vs, vec)

theorem rUnifs_inv (rnd : ℚ → ℚ) (kind : RKind) (P : Nat → List UInt → Prop) (out : Nat → ℚ)
    (step : ∀ n v, P n v → ∃ v', unifRand rnd kind v = .ok (out n, v') ∧ P (n + 1) v') :
    ∀ n m v, P m v → ∃ v', rUnifs rnd kind n v = .ok ((List.range n).map (fun k => out (m + k)), v') ∧ P (m + n) v' := by
  intro n
  induction n with
  | zero => intro m v h; exact ⟨v, rfl, h⟩
  | succ n ih =>
    intro m v h
    obtain ⟨v1, e1, h1⟩ := step m v h
    obtain ⟨v2, e2, h2⟩ := ih (m + 1) v1 h1
    refine ⟨v2, ?_, by rwa [show m + (n + 1) = m + 1 + n by omega]⟩
    rw [rUnifs, e1]
    simp only [Res.bind_ok]
    rw [e2, List.range_succ_eq_map]
    simp only [Res.bind_ok, List.map_cons, List.map_map]
    congr 3
    apply List.map_congr_left
    intro k _
    show out (m + 1 + k) = out (m + (k + 1))
    congr 1; omega

/-! ### Seeding -/

theorem rLcg_toNat (s : UInt) : (rLcg s).toNat = (69069 * s.toNat + 1) % 2 ^ 32 := by
  rw [rLcg, BitVec.toNat_add, BitVec.toNat_mul]
  show (69069 * s.toNat % 2 ^ 32 + 1) % 2 ^ 32 = _
  omega

theorem rScramble_toNat (s : UInt) : ∀ n, (rScramble n s).toNat = Spec.rSeed s.toNat n
  | 0 => rfl
  | n + 1 => by rw [rScramble_succ, rLcg_toNat, rScramble_toNat s n]; rfl

theorem rFill_seed (n : Nat) (s : UInt) (vec : List UInt) (h : n ≤ vec.length) :
    ∃ y, rFill n 0 (rScramble 50 s) vec = .ok y ∧ y.length = vec.length ∧
      ∀ i, i < n → (y.getD i 0).toNat = Spec.rSeed s.toNat (51 + i) := by
  obtain ⟨y, e, l, g⟩ := rFill_spec n 0 (rScramble 50 s) vec (by omega)
  refine ⟨y, e, l, fun i hi => ?_⟩
  rw [g, if_pos (by omega), rScramble_add, rScramble_toNat]
  congr 1; omega

/-- The low 32 bits of the seed argument. -/
theorem truncate_toNat (s : BitVec 64) : (BitVec.truncate 32 s).toNat = s.toNat % 2 ^ 32 := by
  rw [BitVec.truncate, BitVec.toNat_setWidth]

/-! ### Wichmann-Hill -/

theorem umod_toNat (a b : UInt) : (a % b).toNat = a.toNat % b.toNat := BitVec.toNat_umod

theorem residue_pos {w m : Nat} (hm : 1 < m) : 0 < Spec.residue w m ∧ Spec.residue w m < m := by
  unfold Spec.residue
  have := Nat.mod_lt w (show 0 < m by omega)
  split <;> omega

theorem nz_toNat (v : UInt) (w m : Nat) (h : v.toNat = w % m) : (if v = 0 then 1 else v : UInt).toNat = Spec.residue w m := by
  unfold Spec.residue
  by_cases h0 : v = 0
  · rw [if_pos h0, if_pos (by rw [← h, h0]; rfl)]; rfl
  · rw [if_neg h0, if_neg (by rw [← h]; exact fun h1 => h0 (BitVec.eq_of_toNat_eq h1)), h]

/-- The state of Wichmann-Hill after `n` draws. -/
structure WhState (a b c n : Nat) (v : List UInt) : Prop where
  len : v.length = 625
  i1 : (v.getD 0 0).toNat = 171 ^ n * a % 30269
  i2 : (v.getD 1 0).toNat = 172 ^ n * b % 30307
  i3 : (v.getD 2 0).toNat = 170 ^ n * c % 30323

theorem wh_mul (x : UInt) (m a n : Nat) (c p : UInt) (hx : x.toNat = c.toNat ^ n * a % p.toNat) (hp : p.toNat = m) (hc : c.toNat < 200)
    (hm : 0 < m) (hm2 : m < 40000) :
    (x * c).toNat = x.toNat * c.toNat ∧ (x * c % p).toNat = c.toNat ^ (n + 1) * a % m := by
  have hlt : x.toNat < m := by rw [hx, hp]; exact Nat.mod_lt _ hm
  have h1 : (x * c).toNat = x.toNat * c.toNat := by
    rw [BitVec.toNat_mul, Nat.mod_eq_of_lt]
    calc x.toNat * c.toNat ≤ 40000 * 200 := Nat.mul_le_mul (by omega) (by omega)
      _ < 2 ^ 32 := by norm_num
  refine ⟨h1, ?_⟩
  rw [umod_toNat, h1, hp, hx, hp, Nat.mod_mul_mod, Nat.pow_succ]
  congr 1
  rw [Nat.mul_right_comm]

theorem wh_step (rnd : ℚ → ℚ) (a b c n : Nat) (v : List UInt) (h : WhState a b c n v) :
    ∃ v', unifRand rnd .wichmannHill v = .ok (whValue rnd (BitVec.ofNat 32 (171 ^ (n + 1) * a % 30269))
      (BitVec.ofNat 32 (172 ^ (n + 1) * b % 30307)) (BitVec.ofNat 32 (170 ^ (n + 1) * c % 30323)), v') ∧ WhState a b c (n + 1) v' := by
  have hl := h.len
  have h1 := (wh_mul (v.getD 0 0) 30269 a n 171 30269 h.i1 rfl (by decide) (by decide) (by decide)).2
  have h2 := (wh_mul (v.getD 1 0) 30307 b n 172 30307 h.i2 rfl (by decide) (by decide) (by decide)).2
  have h3 := (wh_mul (v.getD 2 0) 30323 c n 170 30323 h.i3 rfl (by decide) (by decide) (by decide)).2
  have k1 : v.getD 0 0 * 171 % 30269 = BitVec.ofNat 32 (171 ^ (n + 1) * a % 30269) := by
    apply BitVec.eq_of_toNat_eq
    rw [h1, BitVec.toNat_ofNat]
    show 171 ^ (n + 1) * a % 30269 = _
    omega
  have k2 : v.getD 1 0 * 172 % 30307 = BitVec.ofNat 32 (172 ^ (n + 1) * b % 30307) := by
    apply BitVec.eq_of_toNat_eq
    rw [h2, BitVec.toNat_ofNat]
    show 172 ^ (n + 1) * b % 30307 = _
    omega
  have k3 : v.getD 2 0 * 170 % 30323 = BitVec.ofNat 32 (170 ^ (n + 1) * c % 30323) := by
    apply BitVec.eq_of_toNat_eq
    rw [h3, BitVec.toNat_ofNat]
    show 170 ^ (n + 1) * c % 30323 = _
    omega
  have hl1 : (v.set 0 (v.getD 0 0 * 171 % 30269)).length = 625 := by rw [List.length_set, hl]
  have hl2 : ((v.set 0 (v.getD 0 0 * 171 % 30269)).set 1 (v.getD 1 0 * 172 % 30307)).length = 625 := by rw [List.length_set, hl1]
  refine ⟨((v.set 0 (v.getD 0 0 * 171 % 30269)).set 1 (v.getD 1 0 * 172 % 30307)).set 2 (v.getD 2 0 * 170 % 30323), ?_, ?_, ?_, ?_, ?_⟩
  · rw [unifRand, rdV (by omega)]
    simp only [Res.bind_ok]
    rw [wrV _ (by omega)]
    simp only [Res.bind_ok]
    rw [rdV (by omega), getD_set _ _ _ _ (by omega), if_neg (by omega)]
    simp only [Res.bind_ok]
    rw [wrV _ (by omega)]
    simp only [Res.bind_ok]
    rw [rdV (by omega), getD_set _ _ _ _ (by omega), if_neg (by omega), getD_set _ _ _ _ (by omega), if_neg (by omega)]
    simp only [Res.bind_ok]
    rw [wrV _ (by omega)]
    simp only [Res.bind_ok]
    rw [k1, k2, k3]
  · rw [List.length_set, hl2]
  · rw [getD_set _ _ _ _ (by omega), if_neg (by omega), getD_set _ _ _ _ (by omega), if_neg (by omega), getD_set _ _ _ _ (by omega), if_pos rfl]
    exact h1
  · rw [getD_set _ _ _ _ (by omega), if_neg (by omega), getD_set _ _ _ _ (by omega), if_pos rfl]
    exact h2
  · rw [getD_set _ _ _ _ (by omega), if_pos rfl]
    exact h3

theorem wh_seed (s : UInt) (vec : List UInt) (hl : vec.length = 625) :
    ∃ v, rngInit .wichmannHill s vec = .ok v ∧ WhState (Spec.residue (Spec.rSeed s.toNat 51) 30269)
      (Spec.residue (Spec.rSeed s.toNat 52) 30307) (Spec.residue (Spec.rSeed s.toNat 53) 30323) 0 v := by
  obtain ⟨y, e, l, g⟩ := rFill_seed 3 s vec (by omega)
  rw [hl] at l
  have g0 : (y.getD 0 0).toNat = Spec.rSeed s.toNat 51 := g 0 (by omega)
  have g1 : (y.getD 1 0).toNat = Spec.rSeed s.toNat 52 := g 1 (by omega)
  have g2 : (y.getD 2 0).toNat = Spec.rSeed s.toNat 53 := g 2 (by omega)
  -- the array after each of the six statements
  have e1 := rMod_spec y 0 30269 (by omega)
  generalize hy1 : y.set 0 (y.getD 0 0 % 30269) = y1 at e1
  have l1 : y1.length = 625 := by rw [← hy1, List.length_set, l]
  have d1 : ∀ k, y1.getD k 0 = if k = 0 then y.getD 0 0 % 30269 else y.getD k 0 := by
    intro k; rw [← hy1]; exact getD_set _ _ _ _ (by omega) _
  have e2 := rMod_spec y1 1 30307 (by omega)
  generalize hy2 : y1.set 1 (y1.getD 1 0 % 30307) = y2 at e2
  have l2 : y2.length = 625 := by rw [← hy2, List.length_set, l1]
  have d2 : ∀ k, y2.getD k 0 = if k = 1 then y1.getD 1 0 % 30307 else y1.getD k 0 := by
    intro k; rw [← hy2]; exact getD_set _ _ _ _ (by omega) _
  have e3 := rMod_spec y2 2 30323 (by omega)
  generalize hy3 : y2.set 2 (y2.getD 2 0 % 30323) = y3 at e3
  have l3 : y3.length = 625 := by rw [← hy3, List.length_set, l2]
  have d3 : ∀ k, y3.getD k 0 = if k = 2 then y2.getD 2 0 % 30323 else y2.getD k 0 := by
    intro k; rw [← hy3]; exact getD_set _ _ _ _ (by omega) _
  have e4 := rNonzero_spec y3 0 (by omega)
  generalize hy4 : y3.set 0 (if y3.getD 0 0 = 0 then 1 else y3.getD 0 0) = y4 at e4
  have l4 : y4.length = 625 := by rw [← hy4, List.length_set, l3]
  have d4 : ∀ k, y4.getD k 0 = if k = 0 then (if y3.getD 0 0 = 0 then 1 else y3.getD 0 0) else y3.getD k 0 := by
    intro k; rw [← hy4]; exact getD_set _ _ _ _ (by omega) _
  have e5 := rNonzero_spec y4 1 (by omega)
  generalize hy5 : y4.set 1 (if y4.getD 1 0 = 0 then 1 else y4.getD 1 0) = y5 at e5
  have l5 : y5.length = 625 := by rw [← hy5, List.length_set, l4]
  have d5 : ∀ k, y5.getD k 0 = if k = 1 then (if y4.getD 1 0 = 0 then 1 else y4.getD 1 0) else y4.getD k 0 := by
    intro k; rw [← hy5]; exact getD_set _ _ _ _ (by omega) _
  have e6 := rNonzero_spec y5 2 (by omega)
  generalize hy6 : y5.set 2 (if y5.getD 2 0 = 0 then 1 else y5.getD 2 0) = y6 at e6
  have l6 : y6.length = 625 := by rw [← hy6, List.length_set, l5]
  have d6 : ∀ k, y6.getD k 0 = if k = 2 then (if y5.getD 2 0 = 0 then 1 else y5.getD 2 0) else y5.getD k 0 := by
    intro k; rw [← hy6]; exact getD_set _ _ _ _ (by omega) _
  have r1 : y3.getD 0 0 = y.getD 0 0 % 30269 := by
    rw [d3, if_neg (by omega), d2, if_neg (by omega), d1, if_pos rfl]
  have r2 : y4.getD 1 0 = y.getD 1 0 % 30307 := by
    rw [d4, if_neg (by omega), d3, if_neg (by omega), d2, if_pos rfl, d1, if_neg (by omega)]
  have r3 : y5.getD 2 0 = y.getD 2 0 % 30323 := by
    rw [d5, if_neg (by omega), d4, if_neg (by omega), d3, if_pos rfl, d2, if_neg (by omega), d1, if_neg (by omega)]
  refine ⟨y6, ?_, l6, ?_, ?_, ?_⟩
  · show (rFill 3 0 (rScramble 50 s) vec >>= fun vec => fixupSeeds .wichmannHill vec) = _
    rw [e]
    simp only [Res.bind_ok, fixupSeeds]
    rw [e1]; simp only [Res.bind_ok]
    rw [e2]; simp only [Res.bind_ok]
    rw [e3]; simp only [Res.bind_ok]
    rw [e4]; simp only [Res.bind_ok]
    rw [e5]; simp only [Res.bind_ok]
    rw [e6]
  · rw [d6, if_neg (by omega), d5, if_neg (by omega), d4, if_pos rfl,
      nz_toNat _ (Spec.rSeed s.toNat 51) 30269 (by rw [r1, umod_toNat, g0]; rfl)]
    have := residue_pos (w := Spec.rSeed s.toNat 51) (m := 30269) (by omega)
    rw [Nat.pow_zero, Nat.one_mul, Nat.mod_eq_of_lt this.2]
  · rw [d6, if_neg (by omega), d5, if_pos rfl,
      nz_toNat _ (Spec.rSeed s.toNat 52) 30307 (by rw [r2, umod_toNat, g1]; rfl)]
    have := residue_pos (w := Spec.rSeed s.toNat 52) (m := 30307) (by omega)
    rw [Nat.pow_zero, Nat.one_mul, Nat.mod_eq_of_lt this.2]
  · rw [d6, if_pos rfl,
      nz_toNat _ (Spec.rSeed s.toNat 53) 30323 (by rw [r3, umod_toNat, g2]; rfl)]
    have := residue_pos (w := Spec.rSeed s.toNat 53) (m := 30323) (by omega)
    rw [Nat.pow_zero, Nat.one_mul, Nat.mod_eq_of_lt this.2]

theorem pow_residue (p c w n : Nat) (hp : Nat.Coprime c p) (h1 : 0 < w) (h2 : w < p) : 0 < c ^ n * w % p := by
  refine Nat.pos_of_ne_zero fun h => ?_
  have := Nat.Coprime.dvd_of_dvd_mul_left (Nat.Coprime.symm (Nat.Coprime.pow_left n hp)) (Nat.dvd_of_mod_eq_zero h)
  have := Nat.le_of_dvd h1 this
  omega

/-- C54, Wichmann-Hill: whatever the seed and the earlier contents of the array, seeding succeeds, the three components after `n`
draws are the `n`-th multiples of nonzero residues, they never become zero, and the draws are made of them. -/
theorem C54_wichmann_hill (rnd : ℚ → ℚ) (s : BitVec 64) (vec : List UInt) (hl : vec.length = 625) :
    ∃ a b c : Nat, a = Spec.residue (Spec.rSeed (s.toNat % 2 ^ 32) 51) 30269 ∧ b = Spec.residue (Spec.rSeed (s.toNat % 2 ^ 32) 52) 30307 ∧
      c = Spec.residue (Spec.rSeed (s.toNat % 2 ^ 32) 53) 30323 ∧
      (∀ n, 0 < 171 ^ n * a % 30269 ∧ 0 < 172 ^ n * b % 30307 ∧ 0 < 170 ^ n * c % 30323) ∧
      ∃ v₀, rRngSet .wichmannHill s vec = .ok v₀ ∧
        ∀ n, ∃ v, rUnifs rnd .wichmannHill n v₀ = .ok ((List.range n).map (fun k =>
            whValue rnd (BitVec.ofNat 32 (171 ^ (k + 1) * a % 30269)) (BitVec.ofNat 32 (172 ^ (k + 1) * b % 30307))
              (BitVec.ofNat 32 (170 ^ (k + 1) * c % 30323))), v) ∧
          (v.getD 0 0).toNat = 171 ^ n * a % 30269 ∧ (v.getD 1 0).toNat = 172 ^ n * b % 30307 ∧
          (v.getD 2 0).toNat = 170 ^ n * c % 30323 := by
  refine ⟨_, _, _, rfl, rfl, rfl, fun n => ⟨?_, ?_, ?_⟩, ?_⟩
  · exact pow_residue _ _ _ _ (by decide) (residue_pos (by omega)).1 (residue_pos (by omega)).2
  · exact pow_residue _ _ _ _ (by decide) (residue_pos (by omega)).1 (residue_pos (by omega)).2
  · exact pow_residue _ _ _ _ (by decide) (residue_pos (by omega)).1 (residue_pos (by omega)).2
  · obtain ⟨v₀, e, h⟩ := wh_seed (BitVec.truncate 32 s) vec hl
    rw [truncate_toNat] at h
    refine ⟨v₀, e, fun n => ?_⟩
    obtain ⟨v, e2, h2⟩ := rUnifs_inv rnd .wichmannHill (WhState _ _ _) _ (fun n v hv => wh_step rnd _ _ _ n v hv) n 0 v₀ h
    rw [Nat.zero_add] at h2
    refine ⟨v, ?_, h2.i1, h2.i2, h2.i3⟩
    rw [e2]
    simp only [Nat.zero_add]

/-! ### Marsaglia multicarry -/

theorem mwc_eq (a x : Nat) (ha : 0 < a) : Spec.mwc a x * 65536 = x + (a * 65536 - 1) * (x % 65536) := by
  unfold Spec.mwc
  have h := Nat.div_add_mod x 65536
  have h2 : (a * 65536 - 1) * (x % 65536) + x % 65536 = a * 65536 * (x % 65536) := by
    rw [← Nat.succ_mul]; congr 1; omega
  rw [Nat.add_mul, show a * (x % 65536) * 65536 = a * 65536 * (x % 65536) by rw [Nat.mul_right_comm]]
  omega

theorem mwc_pos (a x : Nat) (ha : 0 < a) (hx : 0 < x) : 0 < Spec.mwc a x := by
  refine Nat.pos_of_ne_zero fun h => ?_
  have := mwc_eq a x ha
  rw [h] at this
  omega

theorem mwc_iter_pos (a x : Nat) (ha : 0 < a) (hx : 0 < x) (n : Nat) : 0 < (Spec.mwc a)^[n] x := by
  induction n with
  | zero => exact hx
  | succ n ih => rw [Function.iterate_succ_apply']; exact mwc_pos a _ ha ih

theorem mwc_lt (a x : Nat) (ha : a ≤ 65535) (hx : x < 2 ^ 32) : Spec.mwc a x < 2 ^ 32 := by
  unfold Spec.mwc
  have h1 : a * (x % 65536) ≤ 65535 * 65535 := Nat.mul_le_mul ha (by omega)
  omega

theorem mwc_iter_lt (a x : Nat) (ha : a ≤ 65535) (hx : x < 2 ^ 32) (n : Nat) : (Spec.mwc a)^[n] x < 2 ^ 32 := by
  induction n with
  | zero => exact hx
  | succ n ih => rw [Function.iterate_succ_apply']; exact mwc_lt a _ ha ih

theorem mwc_iter_mod (a x : Nat) (ha : 0 < a) (n : Nat) :
    65536 ^ n * (Spec.mwc a)^[n] x % (a * 65536 - 1) = x % (a * 65536 - 1) := by
  induction n with
  | zero => simp
  | succ n ih =>
    rw [Function.iterate_succ_apply', Nat.pow_succ, Nat.mul_assoc, Nat.mul_comm 65536, mwc_eq a _ ha, Nat.mul_add,
      Nat.mul_left_comm, Nat.add_mul_mod_self_left, ih]

theorem mwc_toNat (x a : UInt) (ha : a.toNat ≤ 65535) : (a * (x &&& 0xffff#32) + (x >>> 16)).toNat = Spec.mwc a.toNat x.toNat := by
  unfold Spec.mwc
  rw [BitVec.toNat_add, BitVec.toNat_mul, BitVec.toNat_and, BitVec.toNat_ushiftRight, Nat.shiftRight_eq_div_pow,
    show (0xffff#32).toNat = 2 ^ 16 - 1 from rfl, Nat.and_two_pow_sub_one_eq_mod]
  have h1 : a.toNat * (x.toNat % 2 ^ 16) ≤ 65535 * 65535 := Nat.mul_le_mul ha (by omega)
  have := x.isLt
  show (a.toNat * (x.toNat % 2 ^ 16) % 2 ^ 32 + x.toNat / 2 ^ 16) % 2 ^ 32 = a.toNat * (x.toNat % 2 ^ 16) + x.toNat / 2 ^ 16
  omega

theorem two_pow_xor {b i : Nat} (h : b < 2 ^ i) (a : Nat) : 2 ^ i * a ^^^ b = 2 ^ i * a + b := by
  apply Nat.eq_of_testBit_eq
  intro j
  rw [Nat.testBit_two_pow_mul_add _ h, Nat.testBit_xor]
  have h0 := Nat.testBit_two_pow_mul_add a (Nat.two_pow_pos i) j
  rw [Nat.add_zero] at h0
  rw [h0]
  split
  · rw [Nat.zero_testBit, Bool.false_xor]
  · rename_i hj
    rw [Nat.testBit_lt_two_pow (Nat.lt_of_lt_of_le h (Nat.pow_le_pow_right (by omega) (by omega))), Bool.xor_false]

theorem mc_word (x y : UInt) :
    (x <<< 16) ^^^ (y &&& 0xffff#32) = BitVec.ofNat 32 (x.toNat % 65536 * 65536 + y.toNat % 65536) := by
  apply BitVec.eq_of_toNat_eq
  rw [BitVec.toNat_xor, BitVec.toNat_shiftLeft, BitVec.toNat_and, Nat.shiftLeft_eq,
    show (0xffff#32).toNat = 2 ^ 16 - 1 from rfl, Nat.and_two_pow_sub_one_eq_mod, BitVec.toNat_ofNat]
  have h1 : x.toNat * 2 ^ 16 % 2 ^ 32 = 2 ^ 16 * (x.toNat % 65536) := by omega
  have h2 : y.toNat % 2 ^ 16 < 2 ^ 16 := Nat.mod_lt _ (by decide)
  rw [h1, two_pow_xor h2]
  omega

structure McState (a b n : Nat) (v : List UInt) : Prop where
  len : v.length = 625
  i1 : (v.getD 0 0).toNat = (Spec.mwc 36969)^[n] a
  i2 : (v.getD 1 0).toNat = (Spec.mwc 18000)^[n] b

theorem mc_step (rnd : ℚ → ℚ) (a b n : Nat) (v : List UInt) (h : McState a b n v) :
    ∃ v', unifRand rnd .marsagliaMulticarry v = .ok (wordValue rnd (BitVec.ofNat 32
        ((Spec.mwc 36969)^[n + 1] a % 65536 * 65536 + (Spec.mwc 18000)^[n + 1] b % 65536)) i2_32m1, v') ∧
      McState a b (n + 1) v' := by
  have hl := h.len
  have h1 := mwc_toNat (v.getD 0 0) 36969 (by decide)
  have h2 := mwc_toNat (v.getD 1 0) 18000 (by decide)
  rw [h.i1, show (36969 : UInt).toNat = 36969 from rfl, ← Function.iterate_succ_apply' (Spec.mwc 36969)] at h1
  rw [h.i2, show (18000 : UInt).toNat = 18000 from rfl, ← Function.iterate_succ_apply' (Spec.mwc 18000)] at h2
  have hw := mc_word ((36969 : UInt) * (v.getD 0 0 &&& 0xffff#32) + (v.getD 0 0 >>> 16)) ((18000 : UInt) * (v.getD 1 0 &&& 0xffff#32) + (v.getD 1 0 >>> 16))
  rw [h1, h2] at hw
  generalize h36 : 36969 * (v.getD 0 0 &&& 0xffff#32) + (v.getD 0 0 >>> 16) = x1 at *
  generalize h18 : 18000 * (v.getD 1 0 &&& 0xffff#32) + (v.getD 1 0 >>> 16) = x2 at *
  have hl1 : (v.set 0 x1).length = 625 := by rw [List.length_set, hl]
  refine ⟨(v.set 0 x1).set 1 x2, ?_, by rw [List.length_set, hl1], ?_, ?_⟩
  · rw [unifRand, rdV (by omega)]
    simp only [Res.bind_ok]
    rw [h36, wrV _ (by omega)]
    simp only [Res.bind_ok]
    rw [rdV (by omega), getD_set _ _ _ _ (by omega), if_neg (by omega)]
    simp only [Res.bind_ok]
    rw [h18, wrV _ (by omega)]
    simp only [Res.bind_ok]
    rw [hw]
  · rw [getD_set _ _ _ _ (by omega), if_neg (by omega), getD_set _ _ _ _ (by omega), if_pos rfl]
    exact h1
  · rw [getD_set _ _ _ _ (by omega), if_pos rfl]
    exact h2

theorem mc_seed (s : UInt) (vec : List UInt) (hl : vec.length = 625) :
    ∃ v, rngInit .marsagliaMulticarry s vec = .ok v ∧ McState (Spec.residue (Spec.rSeed s.toNat 51) (2 ^ 32))
      (Spec.residue (Spec.rSeed s.toNat 52) (2 ^ 32)) 0 v := by
  obtain ⟨y, e, l, g⟩ := rFill_seed 2 s vec (by omega)
  rw [hl] at l
  have g0 : (y.getD 0 0).toNat = Spec.rSeed s.toNat 51 := g 0 (by omega)
  have g1 : (y.getD 1 0).toNat = Spec.rSeed s.toNat 52 := g 1 (by omega)
  have e4 := rNonzero_spec y 0 (by omega)
  generalize hy4 : y.set 0 (if y.getD 0 0 = 0 then 1 else y.getD 0 0) = y4 at e4
  have l4 : y4.length = 625 := by rw [← hy4, List.length_set, l]
  have d4 : ∀ k, y4.getD k 0 = if k = 0 then (if y.getD 0 0 = 0 then 1 else y.getD 0 0) else y.getD k 0 := by
    intro k; rw [← hy4]; exact getD_set _ _ _ _ (by omega) _
  have e5 := rNonzero_spec y4 1 (by omega)
  generalize hy5 : y4.set 1 (if y4.getD 1 0 = 0 then 1 else y4.getD 1 0) = y5 at e5
  have l5 : y5.length = 625 := by rw [← hy5, List.length_set, l4]
  have d5 : ∀ k, y5.getD k 0 = if k = 1 then (if y4.getD 1 0 = 0 then 1 else y4.getD 1 0) else y4.getD k 0 := by
    intro k; rw [← hy5]; exact getD_set _ _ _ _ (by omega) _
  refine ⟨y5, ?_, l5, ?_, ?_⟩
  · show (rFill 2 0 (rScramble 50 s) vec >>= fun vec => fixupSeeds .marsagliaMulticarry vec) = _
    rw [e]
    simp only [Res.bind_ok, fixupSeeds]
    rw [e4]; simp only [Res.bind_ok]
    rw [e5]
  · rw [d5, if_neg (show ¬ 0 = 1 by omega), d4, if_pos rfl]
    rw [Function.iterate_zero_apply]
    refine nz_toNat (y.getD 0 0) (Spec.rSeed s.toNat 51) (2 ^ 32) ?_
    rw [← g0]
    exact (Nat.mod_eq_of_lt (y.getD 0 0).isLt).symm
  · rw [d5, if_pos rfl, d4, if_neg (show ¬ 1 = 0 by omega)]
    rw [Function.iterate_zero_apply]
    refine nz_toNat (y.getD 1 0) (Spec.rSeed s.toNat 52) (2 ^ 32) ?_
    rw [← g1]
    exact (Nat.mod_eq_of_lt (y.getD 1 0).isLt).symm

/-- C54, Marsaglia multicarry: after every seeding the two components follow the multiply-with-carry recurrence without ever
wrapping, they stay nonzero, and modulo `36969 * 2^16 - 1` and `18000 * 2^16 - 1` they are the seeding words divided by powers of
`2^16`; the draws are made of their low halves. -/
theorem C54_multicarry (rnd : ℚ → ℚ) (s : BitVec 64) (vec : List UInt) (hl : vec.length = 625) :
    ∃ a b : Nat, a = Spec.residue (Spec.rSeed (s.toNat % 2 ^ 32) 51) (2 ^ 32) ∧ b = Spec.residue (Spec.rSeed (s.toNat % 2 ^ 32) 52) (2 ^ 32) ∧
      (∀ n, 0 < (Spec.mwc 36969)^[n] a ∧ (Spec.mwc 36969)^[n] a < 2 ^ 32 ∧ 0 < (Spec.mwc 18000)^[n] b ∧ (Spec.mwc 18000)^[n] b < 2 ^ 32 ∧
        65536 ^ n * (Spec.mwc 36969)^[n] a % (36969 * 65536 - 1) = a % (36969 * 65536 - 1) ∧
        65536 ^ n * (Spec.mwc 18000)^[n] b % (18000 * 65536 - 1) = b % (18000 * 65536 - 1)) ∧
      ∃ v₀, rRngSet .marsagliaMulticarry s vec = .ok v₀ ∧
        ∀ n, ∃ v, rUnifs rnd .marsagliaMulticarry n v₀ = .ok ((List.range n).map (fun k => wordValue rnd (BitVec.ofNat 32
            ((Spec.mwc 36969)^[k + 1] a % 65536 * 65536 + (Spec.mwc 18000)^[k + 1] b % 65536)) i2_32m1), v) ∧
          (v.getD 0 0).toNat = (Spec.mwc 36969)^[n] a ∧ (v.getD 1 0).toNat = (Spec.mwc 18000)^[n] b := by
  have ha := residue_pos (w := Spec.rSeed (s.toNat % 2 ^ 32) 51) (m := 2 ^ 32) (by decide)
  have hb := residue_pos (w := Spec.rSeed (s.toNat % 2 ^ 32) 52) (m := 2 ^ 32) (by decide)
  refine ⟨_, _, rfl, rfl, fun n => ⟨mwc_iter_pos _ _ (by decide) ha.1 n, mwc_iter_lt _ _ (by decide) ha.2 n,
    mwc_iter_pos _ _ (by decide) hb.1 n, mwc_iter_lt _ _ (by decide) hb.2 n, mwc_iter_mod _ _ (by decide) n,
    mwc_iter_mod _ _ (by decide) n⟩, ?_⟩
  obtain ⟨v₀, e, h⟩ := mc_seed (BitVec.truncate 32 s) vec hl
  rw [truncate_toNat] at h
  refine ⟨v₀, e, fun n => ?_⟩
  obtain ⟨v, e2, h2⟩ := rUnifs_inv rnd .marsagliaMulticarry (McState _ _) _ (fun n v hv => mc_step rnd _ _ n v hv) n 0 v₀ h
  rw [Nat.zero_add] at h2
  refine ⟨v, ?_, h2.i1, h2.i2⟩
  rw [e2]
  simp only [Nat.zero_add]

theorem mwc_coprime (a : Nat) (ha : 0 < a) (n : Nat) : Nat.Coprime (a * 65536 - 1) (65536 ^ n) := by
  refine Nat.Coprime.pow_right _ ?_
  have h1 := Nat.gcd_dvd_left (a * 65536 - 1) 65536
  have h2 : Nat.gcd (a * 65536 - 1) 65536 ∣ (a * 65536 - 1) + 1 := by
    rw [show a * 65536 - 1 + 1 = a * 65536 by omega]
    exact Dvd.dvd.mul_left (Nat.gcd_dvd_right _ _) a
  exact Nat.dvd_one.1 ((Nat.dvd_add_right h1).1 h2)

/-- A component whose start is divisible by the modulus is the modulus from the first draw on, any other start never gets there. -/
theorem mwc_stuck (a x : Nat) (ha : 2 ≤ a) (hx : 0 < x) (hb : Spec.mwc a x < 2 * (a * 65536 - 1))
    (n : Nat) : (Spec.mwc a)^[n + 1] x = a * 65536 - 1 ↔ (a * 65536 - 1) ∣ x := by
  have one : ∀ y, 0 < y → y < 2 * (a * 65536 - 1) → (a * 65536 - 1) ∣ y → y = a * 65536 - 1 := by
    rintro y h1 h2 ⟨k, hk⟩
    have hk1 : k = 1 := by
      rcases Nat.lt_or_ge k 2 with h2 | h2
      · rcases Nat.eq_zero_or_pos k with h3 | h3
        · rw [h3] at hk; omega
        · omega
      · have := Nat.mul_le_mul_left (a * 65536 - 1) h2
        omega
    rw [hk, hk1, Nat.mul_one]
  constructor
  · intro h
    have hmod := mwc_iter_mod a x (by omega) (n + 1)
    rw [h, Nat.mul_mod_left] at hmod
    exact Nat.dvd_of_mod_eq_zero hmod.symm
  · intro h
    have hd : ∀ n, (a * 65536 - 1) ∣ (Spec.mwc a)^[n] x := by
      intro n
      have hmod := mwc_iter_mod a x (by omega) n
      rw [Nat.mod_eq_zero_of_dvd h] at hmod
      exact (mwc_coprime a (by omega) n).dvd_of_dvd_mul_left (Nat.dvd_of_mod_eq_zero hmod)
    induction n with
    | zero => exact one _ (mwc_iter_pos a x (by omega) hx 1) hb (hd 1)
    | succ n ih =>
      rw [Function.iterate_succ_apply', ih]
      have h5 := mwc_eq a (a * 65536 - 1) (by omega)
      have h6 : (a * 65536 - 1) % 65536 = 65535 := by omega
      rw [h6] at h5
      omega

/-- C54, where multicarry does degenerate: a component that starts as a multiple of its modulus is constant from the first draw on.
Every other start keeps away from that value for ever. -/
theorem C54_multicarry_stuck (x n : Nat) (h0 : 0 < x) (h1 : x < 2 ^ 32) :
    ((Spec.mwc 36969)^[n + 1] x = 2422800383 ↔ 2422800383 ∣ x) ∧ ((Spec.mwc 18000)^[n + 1] x = 1179647999 ↔ 1179647999 ∣ x) := by
  constructor
  · exact mwc_stuck 36969 x (by omega) h0 (by unfold Spec.mwc; omega) n
  · exact mwc_stuck 18000 x (by omega) h0 (by unfold Spec.mwc; omega) n

/-- C54, the failure is reached: with the seed 500990680 the first component of multicarry never changes, and with the seed
2267926323 the second one. -/
theorem C54_multicarry_fails (rnd : ℚ → ℚ) (vec : List UInt) (hl : vec.length = 625) :
    (∃ v₀, rRngSet .marsagliaMulticarry 500990680 vec = .ok v₀ ∧
      ∀ n, ∃ us v, rUnifs rnd .marsagliaMulticarry n v₀ = .ok (us, v) ∧ v.getD 0 0 = 2422800383) ∧
    ∃ v₀, rRngSet .marsagliaMulticarry 2267926323 vec = .ok v₀ ∧
      ∀ n, ∃ us v, rUnifs rnd .marsagliaMulticarry n v₀ = .ok (us, v) ∧ v.getD 1 0 = 1179647999 := by
  constructor
  · obtain ⟨a, b, ha, -, -, v₀, e, h⟩ := C54_multicarry rnd 500990680 vec hl
    refine ⟨v₀, e, fun n => ?_⟩
    obtain ⟨v, e2, i1, -⟩ := h n
    refine ⟨_, v, e2, BitVec.eq_of_toNat_eq ?_⟩
    have hs : a = 2422800383 := by rw [ha]; decide +kernel
    rw [i1, hs]
    cases n with
    | zero => rfl
    | succ n => exact (C54_multicarry_stuck 2422800383 n (by omega) (by omega)).1.2 (dvd_refl _)
  · obtain ⟨a, b, -, hb, -, v₀, e, h⟩ := C54_multicarry rnd 2267926323 vec hl
    refine ⟨v₀, e, fun n => ?_⟩
    obtain ⟨v, e2, -, i2⟩ := h n
    refine ⟨_, v, e2, BitVec.eq_of_toNat_eq ?_⟩
    have hs : b = 1179647999 := by rw [hb]; decide +kernel
    rw [i2, hs]
    cases n with
    | zero => rfl
    | succ n => exact (C54_multicarry_stuck 1179647999 n (by omega) (by omega)).2.2 (dvd_refl _)

/-! ### Super-duper -/

theorem xor_zero {a b : Nat} (h : a ^^^ b = 0) : a = b := by
  have : a ^^^ b ^^^ b = b := by rw [h, Nat.zero_xor]
  rwa [Nat.xor_assoc, Nat.xor_self, Nat.xor_zero] at this

theorem tausworthe_pos {x : Nat} (h : x < 2 ^ 32) (h0 : 0 < x) : 0 < Spec.tausworthe x := by
  refine Nat.pos_of_ne_zero fun e => ?_
  unfold Spec.tausworthe at e
  have h1 := xor_zero e
  have hy : x ^^^ x / 2 ^ 15 < 2 ^ 32 := Nat.xor_lt_two_pow h (by omega)
  generalize hg : x ^^^ x / 2 ^ 15 = y at *
  have hy0 : y = 0 := by omega
  rw [hy0] at hg
  have := xor_zero hg
  omega

theorem tausworthe_lt {x : Nat} (h : x < 2 ^ 32) : Spec.tausworthe x < 2 ^ 32 := by
  unfold Spec.tausworthe
  exact Nat.xor_lt_two_pow (Nat.xor_lt_two_pow h (by omega)) (Nat.mod_lt _ (by decide))

theorem tausworthe_iter {x : Nat} (h : x < 2 ^ 32) (h0 : 0 < x) (n : Nat) :
    0 < Spec.tausworthe^[n] x ∧ Spec.tausworthe^[n] x < 2 ^ 32 := by
  induction n with
  | zero => exact ⟨h0, h⟩
  | succ n ih => rw [Function.iterate_succ_apply']; exact ⟨tausworthe_pos ih.2 ih.1, tausworthe_lt ih.2⟩

theorem tausworthe_toNat (x : UInt) :
    ((x ^^^ ((x >>> 15) &&& 0x1ffff#32)) ^^^ ((x ^^^ ((x >>> 15) &&& 0x1ffff#32)) <<< 17)).toNat = Spec.tausworthe x.toNat := by
  unfold Spec.tausworthe
  have h1 : (x ^^^ ((x >>> 15) &&& 0x1ffff#32)).toNat = x.toNat ^^^ x.toNat / 2 ^ 15 := by
    rw [BitVec.toNat_xor, BitVec.toNat_and, BitVec.toNat_ushiftRight, Nat.shiftRight_eq_div_pow,
      show (0x1ffff#32).toNat = 2 ^ 17 - 1 from rfl, Nat.and_two_pow_sub_one_eq_mod, Nat.mod_eq_of_lt]
    have := x.isLt
    omega
  rw [BitVec.toNat_xor, BitVec.toNat_shiftLeft, h1, Nat.shiftLeft_eq]

structure SdState (a b n : Nat) (v : List UInt) : Prop where
  len : v.length = 625
  i1 : (v.getD 0 0).toNat = Spec.tausworthe^[n] a
  i2 : (v.getD 1 0).toNat = 69069 ^ n * b % 2 ^ 32

theorem sd_step (rnd : ℚ → ℚ) (a b n : Nat) (v : List UInt) (h : SdState a b n v) :
    ∃ v', unifRand rnd .superDuper v = .ok (wordValue rnd (BitVec.ofNat 32
        (Spec.tausworthe^[n + 1] a ^^^ 69069 ^ (n + 1) * b % 2 ^ 32)) i2_32m1, v') ∧ SdState a b (n + 1) v' := by
  have hl := h.len
  have h1 := tausworthe_toNat (v.getD 0 0)
  rw [h.i1, ← Function.iterate_succ_apply' Spec.tausworthe] at h1
  have h2 : (v.getD 1 0 * 69069).toNat = 69069 ^ (n + 1) * b % 2 ^ 32 := by
    rw [BitVec.toNat_mul, h.i2]
    show 69069 ^ n * b % 2 ^ 32 * 69069 % 2 ^ 32 = _
    rw [Nat.mod_mul_mod, Nat.pow_succ 69069 n, Nat.mul_right_comm]
  generalize hx1 : (v.getD 0 0 ^^^ ((v.getD 0 0 >>> 15) &&& 0x1ffff#32)) ^^^
    ((v.getD 0 0 ^^^ ((v.getD 0 0 >>> 15) &&& 0x1ffff#32)) <<< 17) = x1 at h1
  generalize hx2 : v.getD 1 0 * 69069 = x2 at h2
  have hw : x1 ^^^ x2 = BitVec.ofNat 32 (Spec.tausworthe^[n + 1] a ^^^ 69069 ^ (n + 1) * b % 2 ^ 32) := by
    apply BitVec.eq_of_toNat_eq
    rw [BitVec.toNat_ofNat, ← h2, ← Nat.succ_eq_add_one, ← h1, ← BitVec.toNat_xor, Nat.mod_eq_of_lt (x1 ^^^ x2).isLt]
  have hl1 : (v.set 0 x1).length = 625 := by rw [List.length_set, hl]
  refine ⟨(v.set 0 x1).set 1 x2, ?_, by rw [List.length_set, hl1], ?_, ?_⟩
  · rw [unifRand, rdV (by omega)]
    simp only [Res.bind_ok]
    rw [hx1, wrV _ (by omega)]
    simp only [Res.bind_ok]
    rw [rdV (by omega), getD_set _ _ _ _ (by omega), if_neg (by omega)]
    simp only [Res.bind_ok]
    rw [hx2, wrV _ (by omega)]
    simp only [Res.bind_ok]
    rw [hw]
  · rw [getD_set _ _ _ _ (by omega), if_neg (by omega), getD_set _ _ _ _ (by omega), if_pos rfl]
    exact h1
  · rw [getD_set _ _ _ _ (by omega), if_pos rfl]
    exact h2

theorem or_one (w : Nat) : w ||| 1 = w / 2 * 2 + 1 := by
  apply Nat.eq_of_testBit_eq
  intro j
  rw [Nat.testBit_or, show w / 2 * 2 + 1 = 2 ^ 1 * (w / 2) + 1 by omega, Nat.testBit_two_pow_mul_add _ (by decide)]
  cases j with
  | zero => simp
  | succ j =>
    rw [if_neg (by omega), Nat.add_sub_cancel, Nat.testBit_succ]
    simp [Nat.testBit_succ]

theorem sd_seed (s : UInt) (vec : List UInt) (hl : vec.length = 625) :
    ∃ v, rngInit .superDuper s vec = .ok v ∧ SdState (Spec.residue (Spec.rSeed s.toNat 51) (2 ^ 32))
      (Spec.rSeed s.toNat 52 / 2 * 2 + 1) 0 v := by
  obtain ⟨y, e, l, g⟩ := rFill_seed 2 s vec (by omega)
  rw [hl] at l
  have g0 : (y.getD 0 0).toNat = Spec.rSeed s.toNat 51 := g 0 (by omega)
  have g1 : (y.getD 1 0).toNat = Spec.rSeed s.toNat 52 := g 1 (by omega)
  have e4 := rNonzero_spec y 0 (by omega)
  generalize hy4 : y.set 0 (if y.getD 0 0 = 0 then 1 else y.getD 0 0) = y4 at e4
  have l4 : y4.length = 625 := by rw [← hy4, List.length_set, l]
  have d4 : ∀ k, y4.getD k 0 = if k = 0 then (if y.getD 0 0 = 0 then 1 else y.getD 0 0) else y.getD k 0 := by
    intro k; rw [← hy4]; exact getD_set _ _ _ _ (by omega) _
  refine ⟨y4.set 1 (y4.getD 1 0 ||| 1), ?_, by rw [List.length_set, l4], ?_, ?_⟩
  · show (rFill 2 0 (rScramble 50 s) vec >>= fun vec => fixupSeeds .superDuper vec) = _
    rw [e]
    simp only [Res.bind_ok, fixupSeeds]
    rw [e4]; simp only [Res.bind_ok]
    rw [rdV (by omega)]; simp only [Res.bind_ok]
    rw [wrV _ (by omega)]
  · rw [getD_set _ _ _ _ (by omega), if_neg (show ¬ 0 = 1 by omega), d4, if_pos rfl]
    rw [Function.iterate_zero_apply]
    refine nz_toNat (y.getD 0 0) (Spec.rSeed s.toNat 51) (2 ^ 32) ?_
    rw [← g0]
    exact (Nat.mod_eq_of_lt (y.getD 0 0).isLt).symm
  · rw [getD_set _ _ _ _ (by omega), if_pos rfl, d4, if_neg (show ¬ 1 = 0 by omega), BitVec.toNat_or, g1, Nat.pow_zero, Nat.one_mul]
    show Spec.rSeed s.toNat 52 ||| 1 = _
    have := (y.getD 1 0).isLt
    rw [g1] at this
    rw [or_one]
    omega

theorem odd_pow (n : Nat) : 69069 ^ n % 2 = 1 := by
  induction n with
  | zero => rfl
  | succ n ih => rw [Nat.pow_succ]; omega

/-- C54, super-duper: after every seeding the Tausworthe part stays nonzero and the congruential part stays odd, and the draws are
made of the two. -/
theorem C54_super_duper (rnd : ℚ → ℚ) (s : BitVec 64) (vec : List UInt) (hl : vec.length = 625) :
    ∃ a b : Nat, a = Spec.residue (Spec.rSeed (s.toNat % 2 ^ 32) 51) (2 ^ 32) ∧ b = Spec.rSeed (s.toNat % 2 ^ 32) 52 / 2 * 2 + 1 ∧
      (∀ n, 0 < Spec.tausworthe^[n] a ∧ Spec.tausworthe^[n] a < 2 ^ 32 ∧ (69069 ^ n * b % 2 ^ 32) % 2 = 1) ∧
      ∃ v₀, rRngSet .superDuper s vec = .ok v₀ ∧
        ∀ n, ∃ v, rUnifs rnd .superDuper n v₀ = .ok ((List.range n).map (fun k => wordValue rnd (BitVec.ofNat 32
            (Spec.tausworthe^[k + 1] a ^^^ 69069 ^ (k + 1) * b % 2 ^ 32)) i2_32m1), v) ∧
          (v.getD 0 0).toNat = Spec.tausworthe^[n] a ∧ (v.getD 1 0).toNat = 69069 ^ n * b % 2 ^ 32 := by
  have ha := residue_pos (w := Spec.rSeed (s.toNat % 2 ^ 32) 51) (m := 2 ^ 32) (by decide)
  refine ⟨_, _, rfl, rfl, fun n => ⟨(tausworthe_iter ha.2 ha.1 n).1, (tausworthe_iter ha.2 ha.1 n).2, ?_⟩, ?_⟩
  · rw [Nat.mod_mod_of_dvd _ (show 2 ∣ 2 ^ 32 by decide), Nat.mul_mod, odd_pow]
    omega
  obtain ⟨v₀, e, h⟩ := sd_seed (BitVec.truncate 32 s) vec hl
  rw [truncate_toNat] at h
  refine ⟨v₀, e, fun n => ?_⟩
  obtain ⟨v, e2, h2⟩ := rUnifs_inv rnd .superDuper (SdState _ _) _ (fun n v hv => sd_step rnd _ _ n v hv) n 0 v₀ h
  rw [Nat.zero_add] at h2
  refine ⟨v, ?_, h2.i1, h2.i2⟩
  rw [e2]
  simp only [Nat.zero_add]

/-! ### Mersenne Twister -/

theorem upper_bits : ∀ i < 32, (0x80000000#32).getLsbD i = decide (i = 31) := by decide
theorem lower_bits : ∀ i < 32, (0x7fffffff#32).getLsbD i = decide (i < 31) := by decide

theorem mt_join (a b : UInt) :
    (a &&& 0x80000000#32) ||| (b &&& 0x7fffffff#32) = (a.extractLsb' 31 1 ++ b.extractLsb' 0 31 : BitVec 32) := by
  apply BitVec.eq_of_getLsbD_eq
  intro i hi
  rw [BitVec.getLsbD_or, BitVec.getLsbD_and, BitVec.getLsbD_and, upper_bits i hi, lower_bits i hi, BitVec.getLsbD_append]
  by_cases h : i < 31
  · rw [if_pos h]
    have : ¬ i = 31 := by omega
    simp [h, this]
  · have h' : i = 31 := by omega
    subst h'
    simp

theorem mtTwist_spec (a b : UInt) : mtTwist a b = (a.extractLsb' 31 1 ++ b.extractLsb' 0 31 : BitVec 32) >>> 1 ^^^
    if b.toNat % 2 = 1 then 0x9908b0df#32 else 0#32 := by
  unfold mtTwist
  simp only
  rw [mt_join]
  congr 1
  have h1 : (a.extractLsb' 31 1 ++ b.extractLsb' 0 31 : BitVec 32) &&& 1 = b &&& 1 := by
    rw [← mt_join]
    apply BitVec.eq_of_getLsbD_eq
    intro i hi
    rw [BitVec.getLsbD_and, BitVec.getLsbD_and, BitVec.getLsbD_or, BitVec.getLsbD_and, BitVec.getLsbD_and, upper_bits i hi, lower_bits i hi]
    cases i with
    | zero => simp
    | succ i => simp
  rw [h1]
  have h2 : (b &&& 1).toNat = b.toNat % 2 := by
    rw [BitVec.toNat_and]
    exact Nat.and_one_is_mod _
  by_cases h : b.toNat % 2 = 1
  · rw [if_pos h, if_neg (fun h' => by rw [h'] at h2; simp at h2; omega)]
  · rw [if_neg h, if_pos (BitVec.eq_of_toNat_eq (by rw [h2]; simp; omega))]; rfl

/-- The sequence that starts with `g` and goes on with the recurrence of MT19937. -/
def mtSeq (g : Nat → UInt) (i : Nat) : UInt :=
  if i < 624 then g i else mtSeq g (i - 227) ^^^ mtTwist (mtSeq g (i - 624)) (mtSeq g (i - 623))
termination_by i

theorem mtSeq_lt (g : Nat → UInt) {i : Nat} (h : i < 624) : mtSeq g i = g i := by rw [mtSeq, if_pos h]

theorem mtSeq_rec (g : Nat → UInt) (k : Nat) : mtSeq g (k + 624) = mtSeq g (k + 397) ^^^ mtTwist (mtSeq g k) (mtSeq g (k + 1)) := by
  conv_lhs => rw [mtSeq]
  rw [if_neg (by omega), show k + 624 - 227 = k + 397 by omega, show k + 624 - 624 = k by omega, show k + 624 - 623 = k + 1 by omega]

/-- The state of the Mersenne Twister after `n` draws of the sequence `x`. -/
def MtState (x : Nat → UInt) (n : Nat) (v : List UInt) : Prop :=
  v.length = 625 ∧ ∃ b p, n + 624 = 624 * b + p ∧ p ≤ 624 ∧ (v.getD 0 0).toNat = p ∧ ∀ i, i < 624 → v.getD (1 + i) 0 = x (624 * b + i)

theorem mt_step (rnd : ℚ → ℚ) (x : Nat → UInt) (hx : ∀ k, x (k + 624) = x (k + 397) ^^^ mtTwist (x k) (x (k + 1))) (n : Nat) (v : List UInt)
    (h : MtState x n v) :
    ∃ v', unifRand rnd .mersenneTwister v = .ok (wordValue rnd (mtTemper (x (624 + n))) (23283064365386963 / 10 ^ 26), v') ∧
      MtState x (n + 1) v' := by
  obtain ⟨hl, b, p, hn, hp, h0, hw⟩ := h
  -- the array from which the word is taken
  obtain ⟨y, b', p', e, ly, hn', hp', hy⟩ : ∃ (y : List UInt) (b' p' : Nat),
      (if (v.getD 0 0).toNat ≥ 624 ∧ (v.getD 0 0).toNat < 2 ^ 31 then mtGenerate 624 0 v else .ok v : Res (List UInt)) = .ok y ∧
      y.length = 625 ∧ n + 624 = 624 * b' + p' ∧
      (p' < 624 ∧ (if (v.getD 0 0).toNat ≥ 624 ∧ (v.getD 0 0).toNat < 2 ^ 31 then 0 else v.getD 0 0) = BitVec.ofNat 32 p') ∧
      ∀ i, i < 624 → y.getD (1 + i) 0 = x (624 * b' + i) := by
    by_cases hc : (v.getD 0 0).toNat ≥ 624 ∧ (v.getD 0 0).toNat < 2 ^ 31
    · obtain ⟨y, e, ly, -, hy⟩ := mtGenerate_spec x hx (624 * b) 624 0 v rfl hl (fun i hi => by omega) (fun i _ hi => hw i hi)
      rw [if_pos hc, if_pos hc]
      refine ⟨y, b + 1, 0, e, ly, by omega, ⟨by omega, rfl⟩, fun i hi => ?_⟩
      rw [hy i hi]; exact congrArg x (by omega)
    · rw [if_neg hc, if_neg hc]
      refine ⟨v, b, p, rfl, hl, hn, ⟨by omega, BitVec.eq_of_toNat_eq ?_⟩, hw⟩
      rw [BitVec.toNat_ofNat, h0]; omega
  have ht : (BitVec.ofNat 32 p' + 1 : UInt).toNat = 1 + p' := by
    rw [BitVec.toNat_add, BitVec.toNat_ofNat]
    show (p' % 2 ^ 32 + 1) % 2 ^ 32 = _
    omega
  refine ⟨y.set 0 (BitVec.ofNat 32 p' + 1), ?_, by rw [List.length_set, ly], b', p' + 1, by omega, by omega, ?_, ?_⟩
  · rw [unifRand, mtGenrand, rdV (by omega)]
    simp only [Res.bind_ok]
    rw [if_neg (by omega), if_neg (by omega), e]
    simp only [Res.bind_ok]
    rw [hp'.2, ht, rdV (by omega), hy p' hp'.1]
    simp only [Res.bind_ok]
    rw [wrV _ (by omega), show 624 * b' + p' = 624 + n by omega]
    simp only [Res.bind_ok]
  · rw [getD_set _ _ _ _ (by omega), if_pos rfl, ht]; omega
  · intro i hi
    rw [getD_set _ _ _ _ (by omega), if_neg (by omega), hy i hi]

theorem mt_seed (s : UInt) (vec : List UInt) (hl : vec.length = 625) :
    ∃ v, rngInit .mersenneTwister s vec = .ok v ∧ v.length = 625 ∧ v.getD 0 0 = 624 ∧
      ∀ i, i < 624 → (v.getD (1 + i) 0).toNat = Spec.rSeed s.toNat (52 + i) := by
  obtain ⟨y, e, l, g⟩ := rFill_seed 625 s vec (by omega)
  rw [hl] at l
  have hy : ∀ k, (y.set 0 624).getD k 0 = if k = 0 then 624 else y.getD k 0 := fun k => getD_set _ _ _ _ (by omega) _
  have ly : (y.set 0 624).length = 625 := by rw [List.length_set, l]
  have hw : ∀ i, i < 624 → ((y.set 0 624).getD (1 + i) 0).toNat = Spec.rSeed s.toNat (52 + i) := by
    intro i hi
    rw [hy, if_neg (by omega), g _ (by omega)]
    congr 1; omega
  obtain ⟨b, eb, hb⟩ := rNotAllZero_spec (y.set 0 624) 624 1 (by omega)
  have hbt : b = true := by
    rw [hb]
    have h1 := hw 0 (by omega)
    have h2 := hw 1 (by omega)
    rw [show 52 + 1 = 52 + 0 + 1 from rfl, Spec.rSeed, ← h1] at h2
    by_cases hz : ((y.set 0 624).getD (1 + 0) 0).toNat = 0
    · refine ⟨1 + 1, by omega, by omega, fun h => ?_⟩
      rw [h, hz] at h2
      simp at h2
    · exact ⟨1 + 0, by omega, by omega, fun h => hz (by rw [h]; rfl)⟩
  refine ⟨y.set 0 624, ?_, ly, by rw [hy, if_pos rfl], hw⟩
  show (rFill 625 0 (rScramble 50 s) vec >>= fun vec => fixupSeeds .mersenneTwister vec) = _
  rw [e]
  simp only [Res.bind_ok, fixupSeeds]
  rw [wrV _ (by omega)]
  simp only [Res.bind_ok]
  rw [rdV (by omega), hy, if_pos rfl]
  simp only [Res.bind_ok]
  rw [if_neg (by decide)]
  simp only [Res.bind_ok]
  rw [eb, hbt]
  rfl

namespace Spec

/-- The tempering of MT19937. -/
def temper (y : UInt) : UInt :=
  let a := y ^^^ (y >>> 11)
  let b := a ^^^ ((a <<< 7) &&& 0x9d2c5680#32)
  let c := b ^^^ ((b <<< 15) &&& 0xefc60000#32)
  c ^^^ (c >>> 18)

end Spec

/-- C65: whatever the seed and the earlier contents of the array, `R_mersenne_twister` draws the tempered words of the MT19937
sequence whose first 624 words are the seeding words 52 to 675. -/
theorem C65_mersenne_twister (rnd : ℚ → ℚ) (s : BitVec 64) :
    ∃ x : Nat → UInt, Spec.Mt19937 x ∧ (∀ i, i < 624 → (x i).toNat = Spec.rSeed (s.toNat % 2 ^ 32) (52 + i)) ∧
      ∀ vec : List UInt, vec.length = 625 → ∃ v₀, rRngSet .mersenneTwister s vec = .ok v₀ ∧
        ∀ n, ∃ v, rUnifs rnd .mersenneTwister n v₀ =
          .ok ((List.range n).map (fun k => wordValue rnd (Spec.temper (x (624 + k))) (23283064365386963 / 10 ^ 26)), v) := by
  refine ⟨mtSeq (fun i => BitVec.ofNat 32 (Spec.rSeed (s.toNat % 2 ^ 32) (52 + i))), ?_, ?_, ?_⟩
  · intro k
    rw [mtSeq_rec, mtTwist_spec]
  · intro i hi
    rw [mtSeq_lt _ hi, BitVec.toNat_ofNat, show 52 + i = 51 + i + 1 by omega, Spec.rSeed, Nat.mod_mod]
  · intro vec hl
    obtain ⟨v₀, e, l, h0, hw⟩ := mt_seed (BitVec.truncate 32 s) vec hl
    rw [truncate_toNat] at hw
    refine ⟨v₀, e, fun n => ?_⟩
    obtain ⟨v, e2, -⟩ := rUnifs_inv rnd .mersenneTwister
      (MtState (mtSeq (fun i => BitVec.ofNat 32 (Spec.rSeed (s.toNat % 2 ^ 32) (52 + i))))) _
      (fun n v hv => mt_step rnd _ (mtSeq_rec _) n v hv) n 0 v₀
      ⟨l, 0, 624, by omega, by omega, by rw [h0]; rfl, fun i hi => by
        rw [Nat.mul_zero, Nat.zero_add, mtSeq_lt _ hi]
        apply BitVec.eq_of_toNat_eq
        rw [BitVec.toNat_ofNat, ← hw i hi]
        exact (Nat.mod_eq_of_lt (v₀.getD (1 + i) 0).isLt).symm⟩
    refine ⟨v, ?_⟩
    rw [e2]
    simp only [Nat.zero_add]
    rfl

/-! ### Knuth -/

def KtState (x : Nat → UInt) (n : Nat) (v : List UInt) : Prop :=
  v.length = 625 ∧ ∃ b p, n + 100 = 100 * b + p ∧ p ≤ 100 ∧ (v.getD 100 0).toNat = p ∧ ∀ i, i < 100 → v.getD i 0 = x (1009 * b + i)

theorem ktNext_step (x : Nat → UInt) (hx : Lag x) (n : Nat) (v : List UInt) (h : KtState x n v) :
    ∃ v', ktNext v = .ok (x (1009 * (n / 100 + 1) + n % 100), v') ∧ KtState x (n + 1) v' := by
  obtain ⟨hl, b, p, hn, hp, h0, hw⟩ := h
  obtain ⟨y, b', p', e, ly, hn', hp', h0', hy⟩ : ∃ (y : List UInt) (b' p' : Nat),
      (if (v.getD 100 0).toNat ≥ 100 then (do
          let (buf, vec) ← ranArray (List.replicate 1009 0) 1009 v
          let _ ← wr buf 100 0xffffffff#32
          wr vec 100 0) else .ok v : Res (List UInt)) = .ok y ∧
      y.length = 625 ∧ n + 100 = 100 * b' + p' ∧ p' < 100 ∧ (y.getD 100 0).toNat = p' ∧
      ∀ i, i < 100 → y.getD i 0 = x (1009 * b' + i) := by
    by_cases hc : (v.getD 100 0).toNat ≥ 100
    · obtain ⟨aa, r, e, la, lr, -, g⟩ := ranArray_spec (fun i => x (1009 * b + i)) (hx.shift _) (List.replicate 1009 0) 1009 (by omega)
        List.length_replicate v (by omega) hw
      rw [if_pos hc, e]
      simp only [Res.bind_ok]
      rw [wrV _ (by omega)]
      simp only [Res.bind_ok]
      rw [wrV _ (by omega)]
      refine ⟨r.set 100 0, b + 1, 0, rfl, by rw [List.length_set]; omega, by omega, by omega, ?_, fun i hi => ?_⟩
      · rw [getD_set _ _ _ _ (by omega), if_pos rfl]; rfl
      · rw [getD_set _ _ _ _ (by omega), if_neg (by omega), g, if_pos hi]
        exact congrArg x (by omega)
    · rw [if_neg hc]
      exact ⟨v, b, p, rfl, hl, hn, by omega, h0, hw⟩
  have ht : (y.getD 100 0 + 1 : UInt).toNat = p' + 1 := by
    rw [BitVec.toNat_add, h0']
    show (p' + 1) % 2 ^ 32 = _
    omega
  refine ⟨y.set 100 (y.getD 100 0 + 1), ?_, by rw [List.length_set, ly], b', p' + 1, by omega, by omega, ?_, ?_⟩
  · rw [ktNext, rdV (by omega)]
    simp only [Res.bind_ok]
    rw [e]
    simp only [Res.bind_ok]
    rw [rdV (by omega)]
    simp only [Res.bind_ok]
    rw [wrV _ (by omega)]
    simp only [Res.bind_ok]
    rw [rdV (by rw [List.length_set]; omega), getD_set _ _ _ _ (by omega), if_neg (by omega), h0', hy p' hp',
      show n / 100 + 1 = b' by omega, show n % 100 = p' by omega]
    rfl
  · rw [getD_set _ _ _ _ (by omega), if_pos rfl, ht]
  · intro i hi
    rw [getD_set _ _ _ _ (by omega), if_neg (by omega), hy i hi]

theorem kt_seed (s : UInt) : ∃ x : Nat → UInt, Lag x ∧ (∀ i, (x i).toNat < 2 ^ 30) ∧ (∃ i, i < 100 ∧ (x i).toNat % 2 = 1) ∧
    ∀ vec : List UInt, vec.length = 625 → ∃ v, rngInitKT s vec = .ok v ∧ KtState x 0 v := by
  obtain ⟨x, h1, h2, h3, h4⟩ := ranStart_spec (s % 1073741821#32)
  refine ⟨x, h1, h2, h3, fun vec hl => ?_⟩
  obtain ⟨r, e, l, g⟩ := h4 vec (by omega)
  refine ⟨r.set 100 100, ?_, by rw [List.length_set]; omega, 0, 100, by omega, by omega, ?_, fun i hi => ?_⟩
  · rw [rngInitKT, e]
    simp only [Res.bind_ok]
    rw [wrV _ (by omega)]
  · rw [getD_set _ _ _ _ (by omega), if_pos rfl]; rfl
  · rw [getD_set _ _ _ _ (by omega), if_neg (by omega), g, if_pos hi, Nat.mul_zero, Nat.zero_add]

theorem lag_knuth {x : Nat → UInt} (h : Lag x) (hb : ∀ i, (x i).toNat < 2 ^ 30) : Spec.Knuth x := by
  intro i
  refine ⟨hb i, ?_⟩
  rw [h i, modDiff_toNat]
  have h1 := hb i
  have h2 := hb (i + 63)
  omega

/-- C66: whatever the seed and the earlier contents of the array, the two Knuth generators draw from one lagged Fibonacci sequence
that depends on the seed alone: 100 words, then 909 words are skipped.  Among any hundred consecutive words one is odd, so that the
sequence has the full period of its low bit. -/
theorem C66_knuth (rnd : ℚ → ℚ) (s : BitVec 64) :
    ∃ x : Nat → UInt, Spec.Knuth x ∧ (∀ n, ∃ i, i < 100 ∧ (x (n + i)).toNat % 2 = 1) ∧
      ∀ kind, kind = .knuthTaocp ∨ kind = .knuthTaocp2 → ∀ vec : List UInt, vec.length = 625 → ∃ v₀, rRngSet kind s vec = .ok v₀ ∧
        ∀ n, ∃ v, rUnifs rnd kind n v₀ =
          .ok ((List.range n).map (fun k => wordValue rnd (x (1009 * (k / 100 + 1) + k % 100)) ktScale), v) := by
  obtain ⟨x, h1, h2, h3, h4⟩ := kt_seed (rScramble 50 (BitVec.truncate 32 s))
  refine ⟨x, lag_knuth h1 h2, fun n => ?_, fun kind hk vec hl => ?_⟩
  · refine Classical.byContradiction fun hn => ?_
    obtain ⟨i, hi, ho⟩ := h3
    have := h1.even_back n (fun i hi => by
      refine Classical.byContradiction fun h => hn ⟨i, hi, by omega⟩) i hi
    omega
  · obtain ⟨v₀, e, h⟩ := h4 vec hl
    refine ⟨v₀, ?_, fun n => ?_⟩
    · rcases hk with rfl | rfl <;> exact e
    · obtain ⟨v, e2, -⟩ := rUnifs_inv rnd kind (KtState x) (fun k => wordValue rnd (x (1009 * (k / 100 + 1) + k % 100)) ktScale)
        (fun n v hv => by
          obtain ⟨v', e, h'⟩ := ktNext_step x h1 n v hv
          refine ⟨v', ?_, h'⟩
          rcases hk with rfl | rfl <;> rw [unifRand, e] <;> rfl) n 0 v₀ h
      refine ⟨v, ?_⟩
      rw [e2]
      simp only [Nat.zero_add]

/-! ### Range and dependence on the seed -/

namespace Spec.Rounding

variable {rnd : ℚ → ℚ} (h : Spec.Rounding rnd)
include h

theorem int (n : ℤ) (hn : |n| ≤ 2 ^ 53) : rnd n = n := by
  have := h.exact n hn 0 (by omega)
  simpa using this

theorem zero : rnd 0 = 0 := by have := h.int 0 (by norm_num); simpa using this

theorem one : rnd 1 = 1 := by have := h.int 1 (by norm_num); simpa using this

theorem unit {x : ℚ} (h0 : 0 ≤ x) (h1 : x ≤ 1) : 0 ≤ rnd x ∧ rnd x ≤ 1 := by
  constructor
  · have := h.mono 0 x h0; rwa [h.zero] at this
  · have := h.mono x 1 h1; rwa [h.one] at this

theorem inv_pow (e : Nat) (he : e ≤ 1000) {x : ℚ} (hx : 1 / 2 ^ e ≤ x) : 1 / 2 ^ e ≤ rnd x := by
  have h1 := h.exact 1 (by norm_num) e he
  have h2 := h.mono _ _ hx
  rw [show ((1 : ℤ) : ℚ) = 1 by norm_num] at h1
  rwa [h1] at h2

theorem fixup_unit (x : ℚ) : 0 ≤ rFixup rnd x ∧ rFixup rnd x ≤ 1 := by
  have h1 := h.unit (x := i2_32m1) (by unfold i2_32m1; norm_num) (by unfold i2_32m1; norm_num)
  have h2 := h.unit (x := 1 / 2 * rnd i2_32m1) (by linarith [h1.1]) (by linarith [h1.2])
  unfold rFixup
  split
  · exact h2
  · rename_i hx
    split
    · exact h.unit (by linarith [h2.2]) (by linarith [h2.1])
    · rename_i hx1
      refine ⟨by linarith, ?_⟩
      by_contra hc
      have := h.mono (1 - x) 0 (by linarith)
      rw [h.zero] at this
      exact hx1 this

/-- A value made of a word never gets below `2^-34` when its scale is not smaller. -/
theorem word_pos (w : UInt) (c : ℚ) (hc : 1 / 2 ^ 34 ≤ c) : 1 / 2 ^ 34 ≤ wordValue rnd w c := by
  have h1 := h.inv_pow 33 (by omega) (x := i2_32m1) (by unfold i2_32m1; norm_num)
  have h2 := h.inv_pow 34 (by omega) (x := 1 / 2 * rnd i2_32m1) (by
    have e : (1 : ℚ) / 2 ^ 34 = 1 / 2 * (1 / 2 ^ 33) := by norm_num
    rw [e]; linarith)
  have hi := h.unit (x := i2_32m1) (by unfold i2_32m1; norm_num) (by unfold i2_32m1; norm_num)
  have hj := h.inv_pow 34 (by omega) (x := c) hc
  unfold wordValue
  by_cases h0 : w.toNat = 0
  · have e : rnd ((w.toNat : ℚ) * rnd c) = 0 := by rw [h0]; simp [h.zero]
    unfold rFixup
    rw [e, if_pos (le_refl _)]
    exact h2
  · have hw : (1 : ℚ) ≤ (w.toNat : ℚ) := by exact_mod_cast Nat.one_le_iff_ne_zero.2 h0
    have h3 : 1 / 2 ^ 34 ≤ rnd ((w.toNat : ℚ) * rnd c) := by
      refine h.inv_pow 34 (by omega) (le_trans hj ?_)
      have : 0 ≤ rnd c := le_trans (by positivity) hj
      nlinarith
    unfold rFixup
    split
    · exact h2
    · split
      · refine h.inv_pow 34 (by omega) ?_
        have h4 := h.mono (1 / 2 * rnd i2_32m1) (1 / 2) (by linarith [hi.2])
        have h5 := h.exact 1 (by norm_num) 1 (by omega)
        have h6 : rnd (1 / 2) = 1 / 2 := by
          rw [show ((1 : ℤ) : ℚ) = 1 by norm_num, pow_one] at h5
          exact h5
        rw [h6] at h4
        have e : (1 : ℚ) / 2 ^ 34 ≤ 1 / 2 := by norm_num
        linarith
      · exact h3

end Spec.Rounding

theorem toULong_ok {x : ℚ} {m : Nat} (h0 : -1 < x) (h1 : x ≤ m) (hm : m < 2 ^ 64) : ∃ j, toULong x = .ok j ∧ j ≤ m := by
  refine ⟨⌊x⌋.toNat, ?_, ?_⟩
  · unfold toULong
    rw [if_neg]
    push Not
    refine ⟨h0, lt_of_le_of_lt h1 ?_⟩
    exact_mod_cast hm
  · have h2 : ⌊x⌋ ≤ (m : ℤ) := by
      have : ((⌊x⌋ : ℤ) : ℚ) ≤ ((m : ℤ) : ℚ) := le_trans (Int.floor_le x) (by simpa using h1)
      exact_mod_cast this
    omega

/-- What `unif_rand` returns lies in the unit interval, and far enough from zero for the Knuth generators. -/
theorem unifRand_range (rnd : ℚ → ℚ) (hr : Spec.Rounding rnd) (kind : RKind) (vec : List UInt) (u : ℚ) (v : List UInt)
    (h : unifRand rnd kind vec = .ok (u, v)) : 0 ≤ u ∧ u ≤ 1 ∧ (kind = .knuthTaocp2 → 1 / 2 ^ 34 ≤ u) := by
  cases kind
  case wichmannHill =>
    unfold unifRand at h
    obtain ⟨_, -, h⟩ := Res.bind_eq_ok.1 h
    obtain ⟨_, -, h⟩ := Res.bind_eq_ok.1 h
    obtain ⟨_, -, h⟩ := Res.bind_eq_ok.1 h
    obtain ⟨_, -, h⟩ := Res.bind_eq_ok.1 h
    obtain ⟨_, -, h⟩ := Res.bind_eq_ok.1 h
    obtain ⟨_, -, h⟩ := Res.bind_eq_ok.1 h
    injection h with h
    injection h with h1 h2
    have := hr.fixup_unit
    subst h1
    exact ⟨(this _).1, (this _).2, fun h => by cases h⟩
  case marsagliaMulticarry =>
    unfold unifRand at h
    obtain ⟨_, -, h⟩ := Res.bind_eq_ok.1 h
    obtain ⟨_, -, h⟩ := Res.bind_eq_ok.1 h
    obtain ⟨_, -, h⟩ := Res.bind_eq_ok.1 h
    obtain ⟨_, -, h⟩ := Res.bind_eq_ok.1 h
    injection h with h
    injection h with h1 h2
    have := hr.fixup_unit
    subst h1
    exact ⟨(this _).1, (this _).2, fun h => by cases h⟩
  case superDuper =>
    unfold unifRand at h
    obtain ⟨_, -, h⟩ := Res.bind_eq_ok.1 h
    obtain ⟨_, -, h⟩ := Res.bind_eq_ok.1 h
    obtain ⟨_, -, h⟩ := Res.bind_eq_ok.1 h
    obtain ⟨_, -, h⟩ := Res.bind_eq_ok.1 h
    injection h with h
    injection h with h1 h2
    have := hr.fixup_unit
    subst h1
    exact ⟨(this _).1, (this _).2, fun h => by cases h⟩
  case mersenneTwister =>
    unfold unifRand at h
    obtain ⟨_, -, h⟩ := Res.bind_eq_ok.1 h
    injection h with h
    injection h with h1 h2
    have := hr.fixup_unit
    subst h1
    exact ⟨(this _).1, (this _).2, fun h => by cases h⟩
  case knuthTaocp =>
    unfold unifRand at h
    obtain ⟨_, -, h⟩ := Res.bind_eq_ok.1 h
    injection h with h
    injection h with h1 h2
    have := hr.fixup_unit
    subst h1
    exact ⟨(this _).1, (this _).2, fun h => by cases h⟩
  case knuthTaocp2 =>
    unfold unifRand at h
    obtain ⟨⟨w, _⟩, -, h⟩ := Res.bind_eq_ok.1 h
    injection h with h
    injection h with h1 h2
    have := hr.fixup_unit
    subst h1
    exact ⟨(this _).1, (this _).2, fun _ => hr.word_pos w ktScale (by unfold ktScale; norm_num)⟩

/-- The value `gsl_rng_get` makes of a uniform value. -/
theorem rScale_ok (rnd : ℚ → ℚ) (hr : Spec.Rounding rnd) (kind : RKind) (u : ℚ) (h0 : 0 ≤ u) (h1 : u ≤ 1)
    (h2 : kind = .knuthTaocp2 → 1 / 2 ^ 34 ≤ u) : ∃ j, toULong (rScale rnd kind u) = .ok j ∧ j ≤ kind.max := by
  have key : ∀ m : Nat, m < 2 ^ 53 → 0 ≤ rnd (u * m) ∧ rnd (u * m) ≤ m := by
    intro m hm
    have hm0 : (0 : ℚ) ≤ (m : ℚ) := Nat.cast_nonneg m
    constructor
    · have := hr.mono 0 (u * m) (mul_nonneg h0 hm0); rwa [hr.zero] at this
    · have h3 := hr.mono (u * m) m (by nlinarith)
      have h4 := hr.int (m : ℤ) (by rw [abs_of_nonneg (by positivity)]; exact_mod_cast hm.le)
      rw [show (((m : ℤ)) : ℚ) = (m : ℚ) by norm_num] at h4
      rwa [h4] at h3
  have e32 := key 0xffffffff (by norm_num)
  have e30 := key 0x3fffffff (by norm_num)
  cases kind
  case knuthTaocp =>
    refine toULong_ok (m := 0x3fffffff) ?_ ?_ (by norm_num)
    · show -1 < rnd (u * 0x3fffffff)
      have := e30.1; push_cast at this; linarith
    · show rnd (u * 0x3fffffff) ≤ _
      have := e30.2; push_cast at this ⊢; exact this
  case knuthTaocp2 =>
    have hk := h2 rfl
    have a1 := hr.inv_pow 4 (by omega) (x := u * 2 ^ 30) (by
      have e : (1 : ℚ) / 2 ^ 4 = 1 / 2 ^ 34 * 2 ^ 30 := by norm_num
      rw [e]; nlinarith)
    have a2 : rnd (u * 2 ^ 30) ≤ 2 ^ 30 := by
      have h3 := hr.mono (u * 2 ^ 30) (2 ^ 30) (by nlinarith)
      have h4 : rnd (2 ^ 30) = 2 ^ 30 := by
        have := hr.int (2 ^ 30) (by norm_num)
        norm_num at this ⊢
        exact this
      rwa [h4] at h3
    have a3 := hr.mono ((-15 : ℤ) / 2 ^ 4) (rnd (u * 2 ^ 30) - 1) (by norm_num at a1 ⊢; linarith)
    rw [hr.exact (-15) (by norm_num) 4 (by omega)] at a3
    have a4 := hr.mono (rnd (u * 2 ^ 30) - 1) (2 ^ 30 - 1) (by linarith)
    have h4 : rnd (2 ^ 30 - 1) = 2 ^ 30 - 1 := by
      have := hr.int (2 ^ 30 - 1) (by norm_num)
      norm_num at this ⊢
      exact this
    rw [h4] at a4
    refine toULong_ok (m := 2 ^ 30 - 1) ?_ ?_ (by norm_num)
    · show -1 < rnd (rnd (u * 2 ^ 30) - 1)
      norm_num at a3 ⊢; linarith
    · show rnd (rnd (u * 2 ^ 30) - 1) ≤ _
      norm_num at a4 ⊢; linarith
  all_goals
    refine toULong_ok (m := 0xffffffff) ?_ ?_ (by norm_num)
    · show -1 < rnd (u * 0xffffffff)
      have := e32.1; push_cast at this; linarith
    · show rnd (u * 0xffffffff) ≤ _
      have := e32.2; push_cast at this ⊢; exact this

/-- C24, the R family: in every state in which a generator draws at all, `gsl_rng_get` converts the value without overflow and
returns a number between 0 and the advertised maximum, whatever the rounding. -/
theorem C24_r_range (rnd : ℚ → ℚ) (hr : Spec.Rounding rnd) (kind : RKind) (vec : List UInt) (u : ℚ) (v : List UInt)
    (h : unifRand rnd kind vec = .ok (u, v)) : 0 ≤ u ∧ u ≤ 1 ∧ ∃ j, rRngGet rnd kind vec = .ok (j, v) ∧ j ≤ kind.max := by
  obtain ⟨h0, h1, h2⟩ := unifRand_range rnd hr kind vec u v h
  obtain ⟨j, e, hj⟩ := rScale_ok rnd hr kind u h0 h1 h2
  refine ⟨h0, h1, j, ?_, hj⟩
  rw [rRngGet, h]
  simp only [Res.bind_ok]
  rw [e]
  rfl

theorem rDraws_of_rUnifs (rnd : ℚ → ℚ) (hr : Spec.Rounding rnd) (kind : RKind) : ∀ (n : Nat) (vec : List UInt) (us : List ℚ) (v : List UInt),
    rUnifs rnd kind n vec = .ok (us, v) → rDraws rnd kind n vec = .ok (us.map (fun u => ⌊rScale rnd kind u⌋.toNat), v) ∧
      ∀ u ∈ us, ⌊rScale rnd kind u⌋.toNat ≤ kind.max := by
  intro n
  induction n with
  | zero =>
    intro vec us v h
    injection h with h
    injection h with h1 h2
    subst h1 h2
    exact ⟨rfl, by simp⟩
  | succ n ih =>
    intro vec us v h
    rw [rUnifs] at h
    obtain ⟨⟨u, v1⟩, e1, h⟩ := Res.bind_eq_ok.1 h
    obtain ⟨⟨us', v2⟩, e2, h⟩ := Res.bind_eq_ok.1 h
    injection h with h
    injection h with h1 h2
    subst h1 h2
    obtain ⟨i1, i2⟩ := ih v1 us' v2 e2
    obtain ⟨h0, h1, h2⟩ := unifRand_range rnd hr kind vec u v1 e1
    obtain ⟨j, e, hj⟩ := rScale_ok rnd hr kind u h0 h1 h2
    have ej : j = ⌊rScale rnd kind u⌋.toNat := by
      unfold toULong at e
      split at e
      · cases e
      · injection e with e; exact e.symm
    constructor
    · rw [rDraws, rRngGet, e1]
      simp only [Res.bind_ok]
      rw [e]
      simp only [Res.bind_ok]
      rw [i1, ej]
      rfl
    · intro w hw
      rcases List.mem_cons.1 hw with rfl | hw
      · rw [← ej]; exact hj
      · exact i2 w hw

/-- C24, the R family, from a seed: every seeded R generator draws for ever, and all values are within the advertised range. -/
theorem C24_r_seeded (rnd : ℚ → ℚ) (hr : Spec.Rounding rnd) (kind : RKind) (s : BitVec 64) (vec : List UInt) (hl : vec.length = 625) (n : Nat) :
    ∃ v₀ vs v, rRngSet kind s vec = .ok v₀ ∧ rDraws rnd kind n v₀ = .ok (vs, v) ∧ ∀ x ∈ vs, x ≤ kind.max := by
  have : ∃ v₀, rRngSet kind s vec = .ok v₀ ∧ ∃ us v, rUnifs rnd kind n v₀ = .ok (us, v) := by
    cases kind
    case wichmannHill =>
      obtain ⟨_, _, _, -, -, -, -, v₀, e, h⟩ := C54_wichmann_hill rnd s vec hl
      exact ⟨v₀, e, _, (h n).choose, (h n).choose_spec.1⟩
    case marsagliaMulticarry =>
      obtain ⟨_, _, -, -, -, v₀, e, h⟩ := C54_multicarry rnd s vec hl
      exact ⟨v₀, e, _, (h n).choose, (h n).choose_spec.1⟩
    case superDuper =>
      obtain ⟨_, _, -, -, -, v₀, e, h⟩ := C54_super_duper rnd s vec hl
      exact ⟨v₀, e, _, (h n).choose, (h n).choose_spec.1⟩
    case mersenneTwister =>
      obtain ⟨_, -, -, h⟩ := C65_mersenne_twister rnd s
      obtain ⟨v₀, e, h⟩ := h vec hl
      exact ⟨v₀, e, _, (h n).choose, (h n).choose_spec⟩
    case knuthTaocp =>
      obtain ⟨_, -, -, h⟩ := C66_knuth rnd s
      obtain ⟨v₀, e, h⟩ := h .knuthTaocp (Or.inl rfl) vec hl
      exact ⟨v₀, e, _, (h n).choose, (h n).choose_spec⟩
    case knuthTaocp2 =>
      obtain ⟨_, -, -, h⟩ := C66_knuth rnd s
      obtain ⟨v₀, e, h⟩ := h .knuthTaocp2 (Or.inr rfl) vec hl
      exact ⟨v₀, e, _, (h n).choose, (h n).choose_spec⟩
  obtain ⟨v₀, e, us, v, h⟩ := this
  obtain ⟨h1, h2⟩ := rDraws_of_rUnifs rnd hr kind n v₀ us v h
  refine ⟨v₀, _, v, e, h1, fun x hx => ?_⟩
  obtain ⟨u, hu, rfl⟩ := List.mem_map.1 hx
  exact h2 u hu

/-- C26, the R family: the low 32 bits of the seed determine the stream, whatever was in the array before. -/
theorem C26_r (rnd : ℚ → ℚ) (kind : RKind) (s : BitVec 64) : ∃ u : Nat → ℚ,
    ∀ s' : BitVec 64, s'.toNat % 2 ^ 32 = s.toNat % 2 ^ 32 → ∀ vec : List UInt, vec.length = 625 →
      ∃ v₀, rRngSet kind s' vec = .ok v₀ ∧ ∀ n, ∃ v, rUnifs rnd kind n v₀ = .ok ((List.range n).map u, v) := by
  have hs : ∀ s' : BitVec 64, s'.toNat % 2 ^ 32 = s.toNat % 2 ^ 32 → ∀ vec, rRngSet kind s' vec = rRngSet kind s vec := by
    intro s' h vec
    unfold rRngSet
    rw [show BitVec.truncate 32 s' = BitVec.truncate 32 s from BitVec.eq_of_toNat_eq (by rw [truncate_toNat, truncate_toNat, h])]
  have : ∃ u : Nat → ℚ, ∀ vec : List UInt, vec.length = 625 →
      ∃ v₀, rRngSet kind s vec = .ok v₀ ∧ ∀ n, ∃ v, rUnifs rnd kind n v₀ = .ok ((List.range n).map u, v) := by
    cases kind
    case wichmannHill =>
      refine ⟨fun k => whValue rnd (BitVec.ofNat 32 (171 ^ (k + 1) * Spec.residue (Spec.rSeed (s.toNat % 2 ^ 32) 51) 30269 % 30269))
        (BitVec.ofNat 32 (172 ^ (k + 1) * Spec.residue (Spec.rSeed (s.toNat % 2 ^ 32) 52) 30307 % 30307))
        (BitVec.ofNat 32 (170 ^ (k + 1) * Spec.residue (Spec.rSeed (s.toNat % 2 ^ 32) 53) 30323 % 30323)), fun vec hl => ?_⟩
      obtain ⟨a, b, c, ha, hb, hc, -, v₀, e, h⟩ := C54_wichmann_hill rnd s vec hl
      refine ⟨v₀, e, fun n => ?_⟩
      obtain ⟨v, e2, -⟩ := h n
      exact ⟨v, by rw [e2, ha, hb, hc]⟩
    case marsagliaMulticarry =>
      refine ⟨fun k => wordValue rnd (BitVec.ofNat 32 ((Spec.mwc 36969)^[k + 1] (Spec.residue (Spec.rSeed (s.toNat % 2 ^ 32) 51) (2 ^ 32)) % 65536 * 65536 +
        (Spec.mwc 18000)^[k + 1] (Spec.residue (Spec.rSeed (s.toNat % 2 ^ 32) 52) (2 ^ 32)) % 65536)) i2_32m1, fun vec hl => ?_⟩
      obtain ⟨a, b, ha, hb, -, v₀, e, h⟩ := C54_multicarry rnd s vec hl
      refine ⟨v₀, e, fun n => ?_⟩
      obtain ⟨v, e2, -⟩ := h n
      exact ⟨v, by rw [e2, ha, hb]⟩
    case superDuper =>
      refine ⟨fun k => wordValue rnd (BitVec.ofNat 32 (Spec.tausworthe^[k + 1] (Spec.residue (Spec.rSeed (s.toNat % 2 ^ 32) 51) (2 ^ 32)) ^^^
        69069 ^ (k + 1) * (Spec.rSeed (s.toNat % 2 ^ 32) 52 / 2 * 2 + 1) % 2 ^ 32)) i2_32m1, fun vec hl => ?_⟩
      obtain ⟨a, b, ha, hb, -, v₀, e, h⟩ := C54_super_duper rnd s vec hl
      refine ⟨v₀, e, fun n => ?_⟩
      obtain ⟨v, e2, -⟩ := h n
      exact ⟨v, by rw [e2, ha, hb]⟩
    case mersenneTwister =>
      obtain ⟨_, -, -, h⟩ := C65_mersenne_twister rnd s
      exact ⟨_, fun vec hl => h vec hl⟩
    case knuthTaocp =>
      obtain ⟨_, -, -, h⟩ := C66_knuth rnd s
      exact ⟨_, fun vec hl => h .knuthTaocp (Or.inl rfl) vec hl⟩
    case knuthTaocp2 =>
      obtain ⟨_, -, -, h⟩ := C66_knuth rnd s
      exact ⟨_, fun vec hl => h .knuthTaocp2 (Or.inr rfl) vec hl⟩
  obtain ⟨u, hu⟩ := this
  refine ⟨u, fun s' h vec hl => ?_⟩
  rw [hs s' h]
  exact hu vec hl

/-! ### Examples -/

example : Spec.Rounding id := ⟨fun _ _ h => h, fun _ _ _ _ => rfl⟩
example : Spec.rSeed 1 51 = 1280795612 := by decide +kernel
example : ((do let v ← rngInit .superDuper 1 dummyvec; let (_, v) ← rUnifs id .superDuper 3 v; rd v 1) : Res UInt) =
    .ok (BitVec.ofNat 32 (69069 ^ 3 * (Spec.rSeed 1 52 / 2 * 2 + 1))) := by decide +kernel
example : Spec.mwc 36969 2422800383 = 2422800383 ∧ Spec.mwc 18000 3538943997 = 1179647999 := by decide
example : Spec.temper 0x12345678#32 = 0x2b7e4a2d#32 := by decide
example : mtTwist 0xffffffff#32 0x00000003#32 = 0xd908b0de#32 := by decide
example : modDiff 3#32 5#32 = 0x3ffffffe#32 := by decide
example : rFixup id 0 = i2_32m1 / 2 := by unfold rFixup i2_32m1; norm_num
/-- The seed of the witness of `C54_multicarry_fails`. -/
example : Spec.rSeed 500990680 51 = 36969 * 65536 - 1 := by decide +kernel
/-- A state in which the Mersenne Twister does leave the array: the index word is negative. -/
example : mtGenrand (0x80000000#32 :: List.replicate 624 1) = .ub := by decide +kernel

end Dh
