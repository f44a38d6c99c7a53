import Verif.Props.GnuR
import Verif.Model.Kiss
import Verif.Model.RngAes
import Verif.Model.Threefish
/-
C55: instances of generators and interleaved draws.
-/
namespace Dh

/-- Two generators, each with a state of its own (`state->...` only: rng_kiss.c, rng_superkiss.c, rng_aes.c, rng_threefish.c),
drawn from in the order given: `true` is a draw from the first.  The draws of each, and the states at the end. -/
def twoDraws {σ τ α β : Type} (getA : σ → Res (α × σ)) (getB : τ → Res (β × τ)) :
    List Bool → σ → τ → Res ((List α × List β) × (σ × τ))
  | [], s, t => .ok (([], []), (s, t))
  | true :: who, s, t => do
    let (a, s) ← getA s
    let ((as, bs), st) ← twoDraws getA getB who s t
    .ok ((a :: as, bs), st)
  | false :: who, s, t => do
    let (b, t) ← getB t
    let ((as, bs), st) ← twoDraws getA getB who s t
    .ok ((as, b :: bs), st)

/-- `n` draws from one generator. -/
def oneDraws {σ α : Type} (get : σ → Res (α × σ)) : Nat → σ → Res (List α × σ)
  | 0, s => .ok ([], s)
  | n + 1, s => do
    let (a, s) ← get s
    let (as, s) ← oneDraws get n s
    .ok (a :: as, s)

theorem twoDraws_eq {σ τ α β : Type} (getA : σ → Res (α × σ)) (getB : τ → Res (β × τ)) :
    ∀ (who : List Bool) (s : σ) (t : τ) (as : List α) (bs : List β) (s' : σ) (t' : τ),
      oneDraws getA (who.count true) s = .ok (as, s') → oneDraws getB (who.count false) t = .ok (bs, t') →
      twoDraws getA getB who s t = .ok ((as, bs), (s', t')) := by
  intro who
  induction who with
  | nil =>
    intro s t as bs s' t' h1 h2
    injection h1 with h1; injection h2 with h2
    injection h1 with a1 a2; injection h2 with b1 b2
    subst a1 a2 b1 b2
    rfl
  | cons b who ih =>
    intro s t as bs s' t' h1 h2
    cases b
    · rw [List.count_cons_self] at h2
      rw [List.count_cons_of_ne (by decide)] at h1
      rw [oneDraws] at h2
      obtain ⟨⟨b, t1⟩, e1, h2⟩ := Res.bind_eq_ok.1 h2
      obtain ⟨⟨bs', t2⟩, e2, h2⟩ := Res.bind_eq_ok.1 h2
      injection h2 with h2
      injection h2 with b1 b2
      subst b1 b2
      rw [twoDraws, e1]
      simp only [Res.bind_ok]
      rw [ih s t1 as bs' s' t2 h1 e2]
      rfl
    · rw [List.count_cons_self] at h1
      rw [List.count_cons_of_ne (by decide)] at h2
      rw [oneDraws] at h1
      obtain ⟨⟨a, s1⟩, e1, h1⟩ := Res.bind_eq_ok.1 h1
      obtain ⟨⟨as', s2⟩, e2, h1⟩ := Res.bind_eq_ok.1 h1
      injection h1 with h1
      injection h1 with b1 b2
      subst b1 b2
      rw [twoDraws, e1]
      simp only [Res.bind_ok]
      rw [ih s1 t as' bs s2 t' e2 h2]
      rfl

/-- The generators of dieharder that keep their whole state in the instance. -/
inductive PrivateGen where
  | kiss (s : KissS)
  | superkiss (s : SKS)
  | aes (s : AesS)
  | threefish (s : TfS)

/-- A draw from such an instance. -/
def PrivateGen.get : PrivateGen → Res (Nat × PrivateGen)
  | .kiss s => .ok ((kissGet s).1.toNat, .kiss (kissGet s).2)
  | .superkiss s => do
    let (v, s) ← skGet s
    .ok (v.toNat, .superkiss s)
  | .aes s => do
    let (v, s) ← aesGet s
    .ok (v.toNat, .aes s)
  | .threefish s => do
    let (v, s) ← tfGet s
    .ok (v.toNat, .threefish s)

/-- C55, generators with a state of their own (kiss, superkiss, aes, threefish): in every interleaving of the draws from two instances
each of them produces what it produces alone. -/
theorem C55_private (who : List Bool) (a b a' b' : PrivateGen) (as bs : List Nat)
    (ha : oneDraws PrivateGen.get (who.count true) a = .ok (as, a')) (hb : oneDraws PrivateGen.get (who.count false) b = .ok (bs, b')) :
    twoDraws PrivateGen.get PrivateGen.get who a b = .ok ((as, bs), (a', b')) :=
  twoDraws_eq _ _ who a b as bs a' b' ha hb

/-- Draws from two instances of R generators, `true` from the first: an instance is its kind (`state->kind`, rngs_gnu_r.c:386), the
array is shared (153-165). -/
def rTwo (rnd : ℚ → ℚ) (kA kB : RKind) : List Bool → List UInt → Res (List ℚ × List UInt)
  | [], vec => .ok ([], vec)
  | b :: who, vec => do
    let (u, vec) ← unifRand rnd (if b then kA else kB) vec
    let (us, vec) ← rTwo rnd kA kB who vec
    .ok (u :: us, vec)

theorem rTwo_same (rnd : ℚ → ℚ) (kind : RKind) : ∀ (who : List Bool) (vec : List UInt),
    rTwo rnd kind kind who vec = rUnifs rnd kind who.length vec := by
  intro who
  induction who with
  | nil => intro vec; rfl
  | cons b who ih =>
    intro vec
    rw [rTwo, List.length_cons, rUnifs, ite_self]
    simp only [ih]

theorem rRngSet_length (kind : RKind) (s : BitVec 64) (vec : List UInt) (hl : vec.length = 625) :
    ∃ v, rRngSet kind s vec = .ok v ∧ v.length = 625 := by
  unfold rRngSet
  cases kind
  case wichmannHill => obtain ⟨v, e, h⟩ := wh_seed (BitVec.truncate 32 s) vec hl; exact ⟨v, e, h.len⟩
  case marsagliaMulticarry => obtain ⟨v, e, h⟩ := mc_seed (BitVec.truncate 32 s) vec hl; exact ⟨v, e, h.len⟩
  case superDuper => obtain ⟨v, e, h⟩ := sd_seed (BitVec.truncate 32 s) vec hl; exact ⟨v, e, h.len⟩
  case mersenneTwister => obtain ⟨v, e, h, -⟩ := mt_seed (BitVec.truncate 32 s) vec hl; exact ⟨v, e, h⟩
  case knuthTaocp =>
    obtain ⟨x, -, -, -, h⟩ := kt_seed (rScramble 50 (BitVec.truncate 32 s))
    obtain ⟨v, e, k, -⟩ := h vec hl
    exact ⟨v, e, k⟩
  case knuthTaocp2 =>
    obtain ⟨x, -, -, -, h⟩ := kt_seed (rScramble 50 (BitVec.truncate 32 s))
    obtain ⟨v, e, k, -⟩ := h vec hl
    exact ⟨v, e, k⟩

/-- C55 does not hold of two instances of one R generator.  `u` is what an instance with the seed `s₂` draws alone.  If a first
instance is seeded with `s₁` and then a second with `s₂`, the draws of every interleaving of the two are `u 0, u 1, …` dealt out in turn,
whatever `s₁` was. -/
theorem C55_r_shared (rnd : ℚ → ℚ) (kind : RKind) (s₂ : BitVec 64) : ∃ u : Nat → ℚ,
    (∀ vec : List UInt, vec.length = 625 → ∃ v₀, rRngSet kind s₂ vec = .ok v₀ ∧
      ∀ n, ∃ v, rUnifs rnd kind n v₀ = .ok ((List.range n).map u, v)) ∧
    ∀ (s₁ : BitVec 64) (vec : List UInt), vec.length = 625 → ∃ v₁ v₂, rRngSet kind s₁ vec = .ok v₁ ∧ rRngSet kind s₂ v₁ = .ok v₂ ∧
      ∀ who : List Bool, ∃ v, rTwo rnd kind kind who v₂ = .ok ((List.range who.length).map u, v) := by
  obtain ⟨u, hu⟩ := C26_r rnd kind s₂
  refine ⟨u, fun vec hl => hu s₂ rfl vec hl, fun s₁ vec hl => ?_⟩
  obtain ⟨v₁, e1, hl1⟩ := rRngSet_length kind s₁ vec hl
  obtain ⟨v₂, e, h⟩ := hu s₂ rfl v₁ hl1
  refine ⟨v₁, v₂, e1, e, fun who => ?_⟩
  obtain ⟨v, e2⟩ := h who.length
  exact ⟨v, by rw [rTwo_same, e2]⟩

/-- The seeding words of multicarry and super-duper stay in the array: the first one is where the Mersenne Twister keeps its index. -/
theorem mc_first (s : BitVec 64) (vec : List UInt) (hl : vec.length = 625) :
    ∃ v, rRngSet .marsagliaMulticarry s vec = .ok v ∧ v.length = 625 ∧
      (v.getD 0 0).toNat = Spec.residue (Spec.rSeed (s.toNat % 2 ^ 32) 51) (2 ^ 32) := by
  obtain ⟨v, e, h⟩ := mc_seed (BitVec.truncate 32 s) vec hl
  rw [truncate_toNat] at h
  generalize Spec.residue (Spec.rSeed (s.toNat % 2 ^ 32) 51) (2 ^ 32) = a at h ⊢
  exact ⟨v, e, h.len, h.i1⟩

/-- C55 does not hold of different R generators either: once a multicarry instance has been seeded, a Mersenne Twister instance
seeded before reads outside the array whenever the first seeding word is `2^31` or more (and not `2^32 - 1`). -/
theorem C55_r_out_of_bounds (rnd : ℚ → ℚ) (s₁ s₂ : BitVec 64) (vec : List UInt) (hl : vec.length = 625)
    (h1 : 2 ^ 31 ≤ Spec.rSeed (s₂.toNat % 2 ^ 32) 51) (h2 : Spec.rSeed (s₂.toNat % 2 ^ 32) 51 < 2 ^ 32 - 1) :
    ∃ v₁ v₂, rRngSet .mersenneTwister s₁ vec = .ok v₁ ∧ (∃ u v, unifRand rnd .mersenneTwister v₁ = .ok (u, v)) ∧
      rRngSet .marsagliaMulticarry s₂ v₁ = .ok v₂ ∧ unifRand rnd .mersenneTwister v₂ = .ub := by
  obtain ⟨x, -, -, hx⟩ := C65_mersenne_twister rnd s₁
  obtain ⟨v₁, e1, hd⟩ := hx vec hl
  have hl1 : v₁.length = 625 := by
    obtain ⟨v, e, l⟩ := rRngSet_length .mersenneTwister s₁ vec hl
    rw [e] at e1
    injection e1 with e1
    rw [← e1, l]
  obtain ⟨v₂, e2, hl2, h0⟩ := mc_first s₂ v₁ hl1
  refine ⟨v₁, v₂, e1, ?_, e2, ?_⟩
  · obtain ⟨v, h⟩ := hd 1
    rw [rUnifs] at h
    obtain ⟨⟨u, v'⟩, e, -⟩ := Res.bind_eq_ok.1 h
    exact ⟨u, v', e⟩
  · have h3 : (v₂.getD 0 0).toNat = Spec.rSeed (s₂.toNat % 2 ^ 32) 51 := by
      rw [h0]
      unfold Spec.residue
      rw [Nat.mod_eq_of_lt (show Spec.rSeed (s₂.toNat % 2 ^ 32) 51 < 2 ^ 32 by omega), if_neg (by omega)]
    rw [unifRand, mtGenrand, rdV (by omega)]
    simp only [Res.bind_ok]
    rw [if_pos (by rw [h3]; omega)]
    rfl

/-- The hypotheses of `C55_r_out_of_bounds` are met, for instance by the seed 2. -/
example : 2 ^ 31 ≤ Spec.rSeed 2 51 ∧ Spec.rSeed 2 51 < 2 ^ 32 - 1 := by decide +kernel
example : twoDraws PrivateGen.get PrivateGen.get [true, false, false, true] (.kiss ⟨1, 2, 3, 4⟩) (.kiss ⟨5, 6, 7, 8⟩) =
    (do let (as, a) ← oneDraws PrivateGen.get 2 (.kiss ⟨1, 2, 3, 4⟩); let (bs, b) ← oneDraws PrivateGen.get 2 (.kiss ⟨5, 6, 7, 8⟩)
        .ok ((as, bs), (a, b))) := rfl

end Dh
