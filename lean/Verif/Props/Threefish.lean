import Verif.Model.Threefish
import Verif.Spec.Threefish
import Mathlib.Logic.Function.Iterate
/-
Properties C29 (threefish part), C61, C64.
-/
set_option linter.unusedSimpArgs false
namespace Dh
open Threefish

/-- Eight words as a state of the specification. -/
def fn (x : T8) : State
  | 0 => x.x0 | 1 => x.x1 | 2 => x.x2 | 3 => x.x3 | 4 => x.x4 | 5 => x.x5 | 6 => x.x6 | 7 => x.x7

/-- And back. -/
def unfn (f : State) : T8 := ⟨f 0, f 1, f 2, f 3, f 4, f 5, f 6, f 7⟩

theorem unfn_fn (x : T8) : unfn (fn x) = x := rfl

theorem fin8 (i : Fin 8) : i = 0 ∨ i = 1 ∨ i = 2 ∨ i = 3 ∨ i = 4 ∨ i = 5 ∨ i = 6 ∨ i = 7 := by revert i; decide

theorem state_ext {f g : State} (h0 : f 0 = g 0) (h1 : f 1 = g 1) (h2 : f 2 = g 2) (h3 : f 3 = g 3)
    (h4 : f 4 = g 4) (h5 : f 5 = g 5) (h6 : f 6 = g 6) (h7 : f 7 = g 7) : f = g := by
  funext i
  rcases fin8 i with rfl | rfl | rfl | rfl | rfl | rfl | rfl | rfl <;> assumption

theorem fn_unfn (f : State) : fn (unfn f) = f := state_ext rfl rfl rfl rfl rfl rfl rfl rfl

theorem rotL64_eq (x : U64) (n : Nat) (h : n < 64) : rotL64 x n = x.rotateLeft n := by
  rw [BitVec.rotateLeft_eq_rotateLeftAux_of_lt h]; rfl

/-- The eight words in the order of the permuted state. -/
def p1 (x : T8) : T8 := ⟨x.x2, x.x1, x.x4, x.x7, x.x6, x.x5, x.x0, x.x3⟩

theorem mix_eq (d r0 r1 r2 r3 : Nat) (h0 : rot d 0 = r0) (h1 : rot d 1 = r1) (h2 : rot d 2 = r2) (h3 : rot d 3 = r3)
    (l0 : r0 < 64) (l1 : r1 < 64) (l2 : r2 < 64) (l3 : r3 < 64) (x : T8) :
    mix d (fn x) = fn (tfA r0 r1 r2 r3 x) := by
  subst h0 h1 h2 h3
  apply state_ext
  · rfl
  · show (x.x1).rotateLeft (rot d 0) ^^^ (x.x0 + x.x1) = rotL64 x.x1 (rot d 0) ^^^ (x.x0 + x.x1)
    rw [rotL64_eq _ _ l0]
  · rfl
  · show (x.x3).rotateLeft (rot d 1) ^^^ (x.x2 + x.x3) = rotL64 x.x3 (rot d 1) ^^^ (x.x2 + x.x3)
    rw [rotL64_eq _ _ l1]
  · rfl
  · show (x.x5).rotateLeft (rot d 2) ^^^ (x.x4 + x.x5) = rotL64 x.x5 (rot d 2) ^^^ (x.x4 + x.x5)
    rw [rotL64_eq _ _ l2]
  · rfl
  · show (x.x7).rotateLeft (rot d 3) ^^^ (x.x6 + x.x7) = rotL64 x.x7 (rot d 3) ^^^ (x.x6 + x.x7)
    rw [rotL64_eq _ _ l3]

theorem round_eq (d r0 r1 r2 r3 : Nat) (h0 : rot d 0 = r0) (h1 : rot d 1 = r1) (h2 : rot d 2 = r2) (h3 : rot d 3 = r3)
    (l0 : r0 < 64) (l1 : r1 < 64) (l2 : r2 < 64) (l3 : r3 < 64) (x : T8) :
    Threefish.round d (fn x) = fn (p1 (tfA r0 r1 r2 r3 x)) := by
  have h := mix_eq d r0 r1 r2 r3 h0 h1 h2 h3 l0 l1 l2 l3 x
  unfold Threefish.round
  rw [h]
  apply state_ext <;> rfl

/-- The other three round shapes are the first one on renamed words. -/
theorem tfB_eq (r0 r1 r2 r3 : Nat) (x : T8) : tfA r0 r1 r2 r3 (p1 x) = p1 (tfB r0 r1 r2 r3 x) := rfl
theorem tfC_eq (r0 r1 r2 r3 : Nat) (x : T8) : tfA r0 r1 r2 r3 (p1 (p1 x)) = p1 (p1 (tfC r0 r1 r2 r3 x)) := rfl
theorem tfD_eq (r0 r1 r2 r3 : Nat) (x : T8) : tfA r0 r1 r2 r3 (p1 (p1 (p1 x))) = p1 (p1 (p1 (tfD r0 r1 r2 r3 x))) := rfl
theorem p1_four (x : T8) : p1 (p1 (p1 (p1 x))) = x := rfl

/-- Four rounds of the code are four rounds of the definition, given the rotation counts. -/
theorem four (d : Nat) (a0 a1 a2 a3 b0 b1 b2 b3 c0 c1 c2 c3 e0 e1 e2 e3 : Nat)
    (ha : rot d 0 = a0 ∧ rot d 1 = a1 ∧ rot d 2 = a2 ∧ rot d 3 = a3 ∧ a0 < 64 ∧ a1 < 64 ∧ a2 < 64 ∧ a3 < 64)
    (hb : rot (d + 1) 0 = b0 ∧ rot (d + 1) 1 = b1 ∧ rot (d + 1) 2 = b2 ∧ rot (d + 1) 3 = b3 ∧ b0 < 64 ∧ b1 < 64 ∧ b2 < 64 ∧ b3 < 64)
    (hc : rot (d + 2) 0 = c0 ∧ rot (d + 2) 1 = c1 ∧ rot (d + 2) 2 = c2 ∧ rot (d + 2) 3 = c3 ∧ c0 < 64 ∧ c1 < 64 ∧ c2 < 64 ∧ c3 < 64)
    (he : rot (d + 3) 0 = e0 ∧ rot (d + 3) 1 = e1 ∧ rot (d + 3) 2 = e2 ∧ rot (d + 3) 3 = e3 ∧ e0 < 64 ∧ e1 < 64 ∧ e2 < 64 ∧ e3 < 64)
    (x : T8) :
    Threefish.round (d + 3) (Threefish.round (d + 2) (Threefish.round (d + 1) (Threefish.round d (fn x)))) =
      fn (tfD e0 e1 e2 e3 (tfC c0 c1 c2 c3 (tfB b0 b1 b2 b3 (tfA a0 a1 a2 a3 x)))) := by
  obtain ⟨h0, h1, h2, h3, l0, l1, l2, l3⟩ := ha
  obtain ⟨i0, i1, i2, i3, m0, m1, m2, m3⟩ := hb
  obtain ⟨j0, j1, j2, j3, n0, n1, n2, n3⟩ := hc
  obtain ⟨k0, k1, k2, k3, o0, o1, o2, o3⟩ := he
  rw [round_eq d _ _ _ _ h0 h1 h2 h3 l0 l1 l2 l3, round_eq _ _ _ _ _ i0 i1 i2 i3 m0 m1 m2 m3, tfB_eq,
    round_eq _ _ _ _ _ j0 j1 j2 j3 n0 n1 n2 n3, tfC_eq, round_eq _ _ _ _ _ k0 k1 k2 k3 o0 o1 o2 o3, tfD_eq, p1_four]

theorem rot_mod (d j : Nat) : rot d j = rot (d % 8) j := by unfold rot; rw [Nat.mod_mod]

/-! Key schedule. -/

theorem rd_ks (t0 t1 : U64) (k : T8) (i : Nat) : rd (tfKs t0 t1 k).ks (i % 9) = .ok (keyWord (fn k) i) := by
  unfold keyWord tfKs
  have h : i % 9 < 9 := Nat.mod_lt _ (by omega)
  generalize i % 9 = m at h
  have : m = 0 ∨ m = 1 ∨ m = 2 ∨ m = 3 ∨ m = 4 ∨ m = 5 ∨ m = 6 ∨ m = 7 ∨ m = 8 := by omega
  rcases this with rfl | rfl | rfl | rfl | rfl | rfl | rfl | rfl | rfl <;> try rfl
  rw [dif_neg (by omega)]
  show Res.ok _ = Res.ok _
  congr 1
  show k.x0 ^^^ k.x1 ^^^ k.x2 ^^^ k.x3 ^^^ k.x4 ^^^ k.x5 ^^^ k.x6 ^^^ k.x7 ^^^ 0x5555555555555555 =
    0x5555555555555555 ^^^ k.x0 ^^^ k.x1 ^^^ k.x2 ^^^ k.x3 ^^^ k.x4 ^^^ k.x5 ^^^ k.x6 ^^^ k.x7
  ac_rfl

theorem rd_ts (t0 t1 : U64) (k : T8) (i : Nat) : rd (tfKs t0 t1 k).ts (i % 3) = .ok (tweakWord t0 t1 i) := by
  unfold tweakWord tfKs
  have h : i % 3 < 3 := Nat.mod_lt _ (by omega)
  generalize i % 3 = m at h
  have : m = 0 ∨ m = 1 ∨ m = 2 := by omega
  rcases this with rfl | rfl | rfl <;> rfl

theorem w0 (x : U64) : x + (0 : Word) = x := BitVec.add_zero x

/-- A key injection of the code is a subkey addition. -/
theorem tfI_eq (t0 t1 : U64) (k : T8) (R : Nat) (x : T8) :
    ∃ y, tfI (tfKs t0 t1 k) R x = .ok y ∧ fn y = fun i => fn x i + subkey (fn k) t0 t1 (R + 1) i := by
  unfold tfI
  simp only [rd_ks, rd_ts, Res.bind_ok]
  refine ⟨_, rfl, ?_⟩
  apply state_ext
  · show _ = x.x0 + (keyWord (fn k) (R + 1 + 0) + 0); rw [w0]; rfl
  · show _ = x.x1 + (keyWord (fn k) (R + 1 + 1) + 0); rw [w0]; rfl
  · show _ = x.x2 + (keyWord (fn k) (R + 1 + 2) + 0); rw [w0]; rfl
  · show _ = x.x3 + (keyWord (fn k) (R + 1 + 3) + 0); rw [w0]; rfl
  · show _ = x.x4 + (keyWord (fn k) (R + 1 + 4) + 0); rw [w0]; rfl
  · rfl
  · rfl
  · show x.x7 + (keyWord (fn k) (R + 8) + BitVec.ofNat 64 R + 1) = x.x7 + (keyWord (fn k) (R + 1 + 7) + BitVec.ofNat 64 (R + 1))
    rw [BitVec.add_assoc (keyWord _ _), BitVec.ofNat_add]; rfl

/-- The specification's state after `d` rounds and the subkey addition there. -/
def keyed (k : T8) (t0 t1 : U64) (p : T8) (d : Nat) : State := addKey (fn k) t0 t1 d (after (fn k) t0 t1 (fn p) d)

theorem addKey_none (key : State) (t0 t1 : U64) (d : Nat) (x : State) (h : d % 4 ≠ 0) : addKey key t0 t1 d x = x := by
  unfold addKey; rw [if_neg h]
theorem addKey_some (key : State) (t0 t1 : U64) (d : Nat) (x : State) (h : d % 4 = 0) :
    addKey key t0 t1 d x = fun i => x i + subkey key t0 t1 (d / 4) i := by
  unfold addKey; rw [if_pos h]

theorem keyed_step (k : T8) (t0 t1 : U64) (p : T8) (d : Nat) (h : (d + 1) % 4 ≠ 0) :
    keyed k t0 t1 p (d + 1) = Threefish.round d (keyed k t0 t1 p d) := by
  unfold keyed
  rw [addKey_none _ _ _ _ _ h, after]

theorem keyed_four (k : T8) (t0 t1 : U64) (p : T8) (m : Nat) :
    keyed k t0 t1 p (4 * m + 4) = fun i => Threefish.round (4 * m + 3) (Threefish.round (4 * m + 2) (Threefish.round (4 * m + 1)
      (Threefish.round (4 * m) (keyed k t0 t1 p (4 * m))))) i + subkey (fn k) t0 t1 (m + 1) i := by
  rw [← keyed_step k t0 t1 p (4 * m) (by omega), ← keyed_step k t0 t1 p (4 * m + 1) (by omega), ← keyed_step k t0 t1 p (4 * m + 2) (by omega)]
  unfold keyed
  rw [addKey_some _ _ _ _ _ (show (4 * m + 4) % 4 = 0 by omega), after, show (4 * m + 4) / 4 = m + 1 by omega]

theorem keyed_zero (k : T8) (t0 t1 : U64) (w : T8) :
    keyed k t0 t1 w 0 = fn ⟨w.x0 + k.x0, w.x1 + k.x1, w.x2 + k.x2, w.x3 + k.x3, w.x4 + k.x4, w.x5 + k.x5 + t0, w.x6 + k.x6 + t1, w.x7 + k.x7⟩ := by
  apply state_ext
  · show w.x0 + (k.x0 + 0) = _; rw [w0]; rfl
  · show w.x1 + (k.x1 + 0) = _; rw [w0]; rfl
  · show w.x2 + (k.x2 + 0) = _; rw [w0]; rfl
  · show w.x3 + (k.x3 + 0) = _; rw [w0]; rfl
  · show w.x4 + (k.x4 + 0) = _; rw [w0]; rfl
  · show w.x5 + (k.x5 + t0) = w.x5 + k.x5 + t0; rw [BitVec.add_assoc]
  · show w.x6 + (k.x6 + t1) = w.x6 + k.x6 + t1; rw [BitVec.add_assoc]
  · show w.x7 + (k.x7 + 0) = _; rw [w0]; rfl

theorem tf8_eq (k : T8) (t0 t1 : U64) (p : T8) (R : Nat) (x : T8) (h : keyed k t0 t1 p (8 * R) = fn x) :
    ∃ y, tf8 (tfKs t0 t1 k) R x = .ok y ∧ keyed k t0 t1 p (8 * (R + 1)) = fn y := by
  unfold tf8
  simp only
  obtain ⟨y, e, hy⟩ := tfI_eq t0 t1 k (2 * R) (tfD 26 12 58 7 (tfC 34 14 15 27 (tfB 48 20 43 31 (tfA 38 30 50 53 x))))
  rw [e, Res.bind_ok]
  have r : ∀ c j, c < 8 → rot (8 * R + c) j = rot c j := by
    intro c j hc; rw [rot_mod, show (8 * R + c) % 8 = c by omega]
  have h4 : keyed k t0 t1 p (8 * R + 4) = fn y := by
    rw [hy, show 8 * R + 4 = 4 * (2 * R) + 4 by omega, keyed_four]
    simp only [show 4 * (2 * R) = 8 * R by omega]
    rw [h, four (8 * R) 38 30 50 53 48 20 43 31 34 14 15 27 26 12 58 7]
    · have := fun j => r 0 j (by omega)
      simp only [Nat.add_zero] at this
      simp only [this]; decide
    · simp only [r 1 _ (by omega)]; decide
    · simp only [r 2 _ (by omega)]; decide
    · simp only [r 3 _ (by omega)]; decide
  obtain ⟨z, e', hz⟩ := tfI_eq t0 t1 k (2 * R + 1) (tfD 33 51 39 35 (tfC 29 26 11 9 (tfB 39 27 41 14 (tfA 33 49 8 42 y))))
  refine ⟨z, e', ?_⟩
  rw [hz, show 8 * (R + 1) = 4 * (2 * R + 1) + 4 by omega, keyed_four]
  simp only [show 4 * (2 * R + 1) = 8 * R + 4 by omega]
  rw [h4, four (8 * R + 4) 33 49 8 42 39 27 41 14 29 26 11 9 33 51 39 35]
  · simp only [r 4 _ (by omega)]; decide
  · simp only [r 5 _ (by omega), Nat.add_assoc, Nat.reduceAdd]; decide
  · simp only [r 6 _ (by omega), Nat.add_assoc, Nat.reduceAdd]; decide
  · simp only [r 7 _ (by omega), Nat.add_assoc, Nat.reduceAdd]; decide

theorem tfRounds_eq (k : T8) (t0 t1 : U64) (p : T8) : ∀ n R x, keyed k t0 t1 p (8 * R) = fn x →
    ∃ y, tfRounds (tfKs t0 t1 k) n R x = .ok y ∧ keyed k t0 t1 p (8 * (R + n)) = fn y := by
  intro n
  induction n with
  | zero => intro R x h; exact ⟨x, rfl, h⟩
  | succ n ih =>
    intro R x h
    obtain ⟨y, e, hy⟩ := tf8_eq k t0 t1 p R x h
    obtain ⟨z, e', hz⟩ := ih (R + 1) y hy
    refine ⟨z, ?_, ?_⟩
    · rw [tfRounds, e, Res.bind_ok, e']
    · rw [← hz, show R + (n + 1) = R + 1 + n by omega]

/-- C61.  The unrolled block routine computes Threefish-512: for every key, tweak and block. -/
theorem C61_block64 (t0 t1 : U64) (k w : T8) :
    tfBlock64 t0 t1 k w = .ok (unfn (Threefish.encrypt (fn k) t0 t1 (fn w))) := by
  unfold tfBlock64
  obtain ⟨y, e, h⟩ := tfRounds_eq k t0 t1 w 9 0 _ (keyed_zero k t0 t1 w)
  simp only
  rw [e]
  rw [show 8 * (0 + 9) = 72 from rfl] at h
  unfold keyed at h
  unfold Threefish.encrypt
  rw [h, unfn_fn]

/-! The reference routine. -/

/-- In-bounds reads and writes on the eight words. -/
theorem refMix01 (x : T8) (r : Nat) : refMix x.toList 0 1 r = .ok { x with x0 := x.x0 + x.x1, x1 := rotL64 x.x1 r ^^^ (x.x0 + x.x1) }.toList := rfl
theorem refMix23 (x : T8) (r : Nat) : refMix x.toList 2 3 r = .ok { x with x2 := x.x2 + x.x3, x3 := rotL64 x.x3 r ^^^ (x.x2 + x.x3) }.toList := rfl
theorem refMix45 (x : T8) (r : Nat) : refMix x.toList 4 5 r = .ok { x with x4 := x.x4 + x.x5, x5 := rotL64 x.x5 r ^^^ (x.x4 + x.x5) }.toList := rfl
theorem refMix67 (x : T8) (r : Nat) : refMix x.toList 6 7 r = .ok { x with x6 := x.x6 + x.x7, x7 := rotL64 x.x7 r ^^^ (x.x6 + x.x7) }.toList := rfl
theorem refMix21 (x : T8) (r : Nat) : refMix x.toList 2 1 r = .ok { x with x2 := x.x2 + x.x1, x1 := rotL64 x.x1 r ^^^ (x.x2 + x.x1) }.toList := rfl
theorem refMix47 (x : T8) (r : Nat) : refMix x.toList 4 7 r = .ok { x with x4 := x.x4 + x.x7, x7 := rotL64 x.x7 r ^^^ (x.x4 + x.x7) }.toList := rfl
theorem refMix65 (x : T8) (r : Nat) : refMix x.toList 6 5 r = .ok { x with x6 := x.x6 + x.x5, x5 := rotL64 x.x5 r ^^^ (x.x6 + x.x5) }.toList := rfl
theorem refMix03 (x : T8) (r : Nat) : refMix x.toList 0 3 r = .ok { x with x0 := x.x0 + x.x3, x3 := rotL64 x.x3 r ^^^ (x.x0 + x.x3) }.toList := rfl
theorem refMix41 (x : T8) (r : Nat) : refMix x.toList 4 1 r = .ok { x with x4 := x.x4 + x.x1, x1 := rotL64 x.x1 r ^^^ (x.x4 + x.x1) }.toList := rfl
theorem refMix63 (x : T8) (r : Nat) : refMix x.toList 6 3 r = .ok { x with x6 := x.x6 + x.x3, x3 := rotL64 x.x3 r ^^^ (x.x6 + x.x3) }.toList := rfl
theorem refMix05 (x : T8) (r : Nat) : refMix x.toList 0 5 r = .ok { x with x0 := x.x0 + x.x5, x5 := rotL64 x.x5 r ^^^ (x.x0 + x.x5) }.toList := rfl
theorem refMix27 (x : T8) (r : Nat) : refMix x.toList 2 7 r = .ok { x with x2 := x.x2 + x.x7, x7 := rotL64 x.x7 r ^^^ (x.x2 + x.x7) }.toList := rfl
theorem refMix61 (x : T8) (r : Nat) : refMix x.toList 6 1 r = .ok { x with x6 := x.x6 + x.x1, x1 := rotL64 x.x1 r ^^^ (x.x6 + x.x1) }.toList := rfl
theorem refMix07 (x : T8) (r : Nat) : refMix x.toList 0 7 r = .ok { x with x0 := x.x0 + x.x7, x7 := rotL64 x.x7 r ^^^ (x.x0 + x.x7) }.toList := rfl
theorem refMix25 (x : T8) (r : Nat) : refMix x.toList 2 5 r = .ok { x with x2 := x.x2 + x.x5, x5 := rotL64 x.x5 r ^^^ (x.x2 + x.x5) }.toList := rfl
theorem refMix43 (x : T8) (r : Nat) : refMix x.toList 4 3 r = .ok { x with x4 := x.x4 + x.x3, x3 := rotL64 x.x3 r ^^^ (x.x4 + x.x3) }.toList := rfl

theorem refA {β : Type} (x : T8) (a b c d : Nat) (f : List U64 → Res β) : (do
    let X ← refMix x.toList 0 1 a
    let X ← refMix X 2 3 b
    let X ← refMix X 4 5 c
    let X ← refMix X 6 7 d
    f X) = f (tfA a b c d x).toList := by
  rw [refMix01, Res.bind_ok, refMix23, Res.bind_ok, refMix45, Res.bind_ok, refMix67, Res.bind_ok]; rfl
theorem refB {β : Type} (x : T8) (a b c d : Nat) (f : List U64 → Res β) : (do
    let X ← refMix x.toList 2 1 a
    let X ← refMix X 4 7 b
    let X ← refMix X 6 5 c
    let X ← refMix X 0 3 d
    f X) = f (tfB a b c d x).toList := by
  rw [refMix21, Res.bind_ok, refMix47, Res.bind_ok, refMix65, Res.bind_ok, refMix03, Res.bind_ok]; rfl
theorem refC {β : Type} (x : T8) (a b c d : Nat) (f : List U64 → Res β) : (do
    let X ← refMix x.toList 4 1 a
    let X ← refMix X 6 3 b
    let X ← refMix X 0 5 c
    let X ← refMix X 2 7 d
    f X) = f (tfC a b c d x).toList := by
  rw [refMix41, Res.bind_ok, refMix63, Res.bind_ok, refMix05, Res.bind_ok, refMix27, Res.bind_ok]; rfl
theorem refD {β : Type} (x : T8) (a b c d : Nat) (f : List U64 → Res β) : (do
    let X ← refMix x.toList 6 1 a
    let X ← refMix X 0 7 b
    let X ← refMix X 2 5 c
    let X ← refMix X 4 3 d
    f X) = f (tfD a b c d x).toList := by
  rw [refMix61, Res.bind_ok, refMix07, Res.bind_ok, refMix25, Res.bind_ok, refMix43, Res.bind_ok]; rfl

theorem refKs_eq (t0 t1 : U64) (k : T8) : refKs t0 t1 k.toList = tfKs t0 t1 k := by
  unfold refKs tfKs T8.toList
  simp only [List.foldl_cons, List.foldl_nil, List.cons_append, List.nil_append, TfKs.mk.injEq, List.cons.injEq, and_true, true_and]
  ac_rfl

theorem refAdd0 (x : T8) (v : U64) : refAdd x.toList 0 v = .ok { x with x0 := x.x0 + v }.toList := rfl
theorem refAdd1 (x : T8) (v : U64) : refAdd x.toList 1 v = .ok { x with x1 := x.x1 + v }.toList := rfl
theorem refAdd2 (x : T8) (v : U64) : refAdd x.toList 2 v = .ok { x with x2 := x.x2 + v }.toList := rfl
theorem refAdd3 (x : T8) (v : U64) : refAdd x.toList 3 v = .ok { x with x3 := x.x3 + v }.toList := rfl
theorem refAdd4 (x : T8) (v : U64) : refAdd x.toList 4 v = .ok { x with x4 := x.x4 + v }.toList := rfl
theorem refAdd5 (x : T8) (v : U64) : refAdd x.toList 5 v = .ok { x with x5 := x.x5 + v }.toList := rfl
theorem refAdd6 (x : T8) (v : U64) : refAdd x.toList 6 v = .ok { x with x6 := x.x6 + v }.toList := rfl
theorem refAdd7 (x : T8) (v : U64) : refAdd x.toList 7 v = .ok { x with x7 := x.x7 + v }.toList := rfl

theorem refInject_eq (t0 t1 : U64) (k : T8) (R : Nat) (x : T8) :
    refInject (tfKs t0 t1 k) (R + 1) x.toList = (tfI (tfKs t0 t1 k) R x).map T8.toList := by
  unfold refInject tfI
  simp only [refInjLoop, rd_ks, rd_ts, Res.bind_ok, Nat.reduceAdd, refAdd0, refAdd1, refAdd2, refAdd3, refAdd4, refAdd5, refAdd6, refAdd7, Nat.add_zero, Res.map,
    Nat.add_assoc]
  simp only [BitVec.add_assoc, BitVec.ofNat_add]
  rfl

theorem bind_map_toList (r : Res T8) (f : List U64 → Res (List U64)) (g : T8 → Res T8) (h : ∀ y, f y.toList = (g y).map T8.toList) :
    (r.map T8.toList >>= f) = (r >>= g).map T8.toList := by
  cases r with
  | ok y => exact h y
  | _ => rfl

theorem ref8_eq (t0 t1 : U64) (k : T8) (R : Nat) (x : T8) :
    ref8 (tfKs t0 t1 k) (R + 1) x.toList = (tf8 (tfKs t0 t1 k) R x).map T8.toList := by
  unfold ref8 tf8
  rw [refA, refB, refC, refD, show 2 * (R + 1) - 1 = 2 * R + 1 by omega, refInject_eq, show 2 * (R + 1) = 2 * R + 1 + 1 by omega]
  simp only
  generalize tfA 38 30 50 53 x = x1
  generalize tfB 48 20 43 31 x1 = x2
  generalize tfC 34 14 15 27 x2 = x3
  generalize tfD 26 12 58 7 x3 = x4
  apply bind_map_toList
  intro y
  rw [refA, refB, refC, refD, refInject_eq]

theorem refRounds_eq (t0 t1 : U64) (k : T8) : ∀ n R x,
    refRounds (tfKs t0 t1 k) n (R + 1) x.toList = (tfRounds (tfKs t0 t1 k) n R x).map T8.toList := by
  intro n
  induction n with
  | zero => intro R x; rfl
  | succ n ih =>
    intro R x
    rw [refRounds, tfRounds, ref8_eq]
    cases tf8 (tfKs t0 t1 k) R x with
    | ok y => simp only [Res.map, Res.bind_ok]; rw [ih]; rfl
    | _ => rfl

theorem refFirst_eq (t0 t1 : U64) (k w : T8) : refFirst (tfKs t0 t1 k).ks w.toList 8 0 =
    .ok (T8.toList ⟨w.x0 + k.x0, w.x1 + k.x1, w.x2 + k.x2, w.x3 + k.x3, w.x4 + k.x4, w.x5 + k.x5, w.x6 + k.x6, w.x7 + k.x7⟩) := rfl

/-- C61.  The reference routine and the unrolled routine compute the same function. -/
theorem C61_ref (t0 t1 : U64) (k w : T8) :
    tfBlockRef t0 t1 k.toList w.toList = .ok (unfn (Threefish.encrypt (fn k) t0 t1 (fn w))).toList := by
  have h : tfBlockRef t0 t1 k.toList w.toList = (tfBlock64 t0 t1 k w).map T8.toList := by
    unfold tfBlockRef tfBlock64
    rw [refKs_eq]
    simp only
    rw [← refRounds_eq, refFirst_eq, Res.bind_ok, show rd (tfKs t0 t1 k).ts 0 = .ok t0 from rfl, Res.bind_ok, refAdd5, Res.bind_ok,
      show rd (tfKs t0 t1 k).ts 1 = .ok t1 from rfl, Res.bind_ok, refAdd6, Res.bind_ok]
  rw [h, C61_block64]
  rfl

/-! ### C29 -/

theorem rotateLeft_inj (n : Nat) (hn : n < 64) (x y : U64) (h : x.rotateLeft n = y.rotateLeft n) : x = y := by
  apply BitVec.eq_of_getLsbD_eq
  intro i hi
  have hb := fun j => congrArg (fun z => BitVec.getLsbD z j) h
  simp only [BitVec.getLsbD_rotateLeft_of_le hn, Bool.cond_decide] at hb
  by_cases hc : i + n < 64
  · have := hb (i + n)
    rw [if_neg (by omega), if_neg (by omega)] at this
    simpa [hc] using this
  · have := hb (i + n - 64)
    rw [if_pos (by omega), if_pos (by omega), show 64 - n + (i + n - 64) = i by omega] at this
    exact this

theorem rot_lt : ∀ d < 8, ∀ j < 4, rot d j < 64 := by decide

theorem mix_inj (d : Nat) (x y : State) (h : mix d x = mix d y) : x = y := by
  have hp : ∀ j : Fin 8, j.val % 2 = 1 → x (j - 1) + x j = y (j - 1) + y j → mix d x j = mix d y j → x (j - 1) = y (j - 1) ∧ x j = y j := by
    intro j hj h1 h2
    unfold mix at h2
    rw [if_neg (by omega), if_neg (by omega), h1] at h2
    have h3 := rotateLeft_inj _ (by rw [rot_mod]; exact rot_lt _ (Nat.mod_lt _ (by omega)) _ (by omega)) _ _ ((BitVec.xor_left_inj _).1 h2)
    rw [h3] at h1
    exact ⟨(BitVec.add_left_inj _).1 h1, h3⟩
  have e : ∀ j : Fin 8, j.val % 2 = 0 → x j + x (j + 1) = y j + y (j + 1) := by
    intro j hj
    have := congrFun h j
    unfold mix at this
    rwa [if_pos hj, if_pos hj] at this
  obtain ⟨h0, h1⟩ := hp 1 rfl (e 0 rfl) (congrFun h 1)
  obtain ⟨h2, h3⟩ := hp 3 rfl (e 2 rfl) (congrFun h 3)
  obtain ⟨h4, h5⟩ := hp 5 rfl (e 4 rfl) (congrFun h 5)
  obtain ⟨h6, h7⟩ := hp 7 rfl (e 6 rfl) (congrFun h 7)
  exact state_ext h0 h1 h2 h3 h4 h5 h6 h7

theorem perm_surj : ∀ j : Fin 8, ∃ i, perm i = j := by decide

theorem round_inj (d : Nat) (x y : State) (h : Threefish.round d x = Threefish.round d y) : x = y := by
  apply mix_inj d
  funext j
  obtain ⟨i, rfl⟩ := perm_surj j
  exact congrFun h i

theorem addKey_inj (key : State) (t0 t1 : U64) (d : Nat) (x y : State) (h : addKey key t0 t1 d x = addKey key t0 t1 d y) : x = y := by
  unfold addKey at h
  split at h
  · funext i
    exact (BitVec.add_left_inj _).1 (congrFun h i)
  · exact h

theorem after_inj (key : State) (t0 t1 : U64) (x y : State) (d : Nat) (h : after key t0 t1 x d = after key t0 t1 y d) : x = y := by
  induction d with
  | zero => exact h
  | succ d ih => exact ih (addKey_inj key t0 t1 d _ _ (round_inj d _ _ h))

/-- C29 (threefish).  For a fixed key and tweak two different blocks are never encrypted to the
same block. -/
theorem C29_threefish_injective (t0 t1 : U64) (k w w' : T8) (h : tfBlock64 t0 t1 k w = tfBlock64 t0 t1 k w') : w = w' := by
  rw [C61_block64, C61_block64] at h
  have h1 := congrArg fn (Res.ok.inj h)
  rw [fn_unfn, fn_unfn] at h1
  have h2 := after_inj _ _ _ _ _ 72 (addKey_inj _ _ _ 72 _ _ h1)
  rw [← unfn_fn w, h2, unfn_fn]

/-! ### C64: the generator -/

/-- Encryption under the generator's key with the tweak it uses after seeding. -/
def tfE (b : State) : State := Threefish.encrypt (fn tfKey) 112 0x7f7e7d7c7b7a7978 b

/-- The blocks of the stream from seed `s`: the first one is encrypted with a different tweak. -/
def tfBlocks (s : U64) (n : Nat) : State :=
  tfE^[n] (Threefish.encrypt (fn tfKey) 0x7776757473727170 0x7f7e7d7c7b7a7978 (fun i => if i = 0 then s else 0))

/-- 32-bit half `j` (0..15) of a block, low half first. -/
def half (b : State) (j : Nat) : UInt :=
  let w := b (Fin.ofNat 8 (j / 2))
  if j % 2 = 0 then BitVec.ofNat 32 w.toNat else BitVec.ofNat 32 (w.toNat / 2 ^ 32)

theorem tfWord_eq (b : State) (j : Nat) (hj : j < 16) : tfWord (unfn b) (4 * j) = .ok (half b j) := by
  unfold tfWord half
  have hd : 4 * j / 8 = j / 2 := by omega
  have e : rd (unfn b).toList (4 * j / 8) = .ok (b (Fin.ofNat 8 (j / 2))) := by
    rw [hd]
    have : j / 2 = 0 ∨ j / 2 = 1 ∨ j / 2 = 2 ∨ j / 2 = 3 ∨ j / 2 = 4 ∨ j / 2 = 5 ∨ j / 2 = 6 ∨ j / 2 = 7 := by omega
    rcases this with h | h | h | h | h | h | h | h <;> rw [h] <;> rfl
  rw [e, Res.bind_ok]
  simp only
  congr 1
  generalize b (Fin.ofNat 8 (j / 2)) = w
  apply BitVec.eq_of_toNat_eq
  by_cases h : j % 2 = 0
  · rw [if_pos h, show 4 * j % 8 = 0 by omega]
    simp [BitVec.toNat_setWidth, BitVec.toNat_ushiftRight]
  · rw [if_neg h, show 4 * j % 8 = 4 by omega]
    simp [BitVec.toNat_setWidth, BitVec.toNat_ushiftRight, Nat.shiftRight_eq_div_pow]

/-- The state before draw `k`. -/
def tfAt (s : U64) (k : Nat) : TfS :=
  if k = 0 then ⟨112, 0x7f7e7d7c7b7a7978, tfKey, unfn (tfBlocks s 0), 0⟩
  else ⟨112, 0x7f7e7d7c7b7a7978, tfKey, unfn (tfBlocks s ((k - 1) / 16)), 4 * ((k - 1) % 16) + 4⟩

theorem tfGet_at (s : U64) (k : Nat) :
    tfGet (tfAt s k) = .ok (half (tfBlocks s (k / 16)) (k % 16), tfAt s (k + 1)) := by
  have hsucc : tfAt s (k + 1) = ⟨112, 0x7f7e7d7c7b7a7978, tfKey, unfn (tfBlocks s (k / 16)), 4 * (k % 16) + 4⟩ := by
    unfold tfAt; rw [if_neg (by omega), Nat.add_sub_cancel]
  unfold tfGet
  by_cases hk : 0 < k ∧ k % 16 = 0
  · have e : tfAt s k = ⟨112, 0x7f7e7d7c7b7a7978, tfKey, unfn (tfBlocks s (k / 16 - 1)), 64⟩ := by
      unfold tfAt
      rw [if_neg (by omega), show (k - 1) / 16 = k / 16 - 1 by omega, show 4 * ((k - 1) % 16) + 4 = 64 by omega]
    rw [e, hsucc]
    simp only [show 64 + 4 > 64 by omega, if_true]
    rw [C61_block64, fn_unfn]
    simp only [Res.bind_ok]
    have e2 : Threefish.encrypt (fn tfKey) 112 0x7f7e7d7c7b7a7978 (tfBlocks s (k / 16 - 1)) = tfBlocks s (k / 16) := by
      conv => rhs; rw [show k / 16 = (k / 16 - 1) + 1 by omega]
      unfold tfBlocks
      rw [Function.iterate_succ_apply', tfE]
    rw [e2, hk.2]
    have := tfWord_eq (tfBlocks s (k / 16)) 0 (by omega)
    simp only [Nat.mul_zero] at this
    rw [this]
    rfl
  · have e : tfAt s k = ⟨112, 0x7f7e7d7c7b7a7978, tfKey, unfn (tfBlocks s (k / 16)), 4 * (k % 16)⟩ := by
      unfold tfAt
      by_cases h0 : k = 0
      · subst h0; rfl
      · rw [if_neg h0, show (k - 1) / 16 = k / 16 by omega, show 4 * ((k - 1) % 16) + 4 = 4 * (k % 16) by omega]
    rw [e, hsucc]
    simp only [show ¬ (4 * (k % 16) + 4 > 64) by omega, if_false, Res.bind_ok]
    rw [tfWord_eq _ _ (by omega)]
    rfl

theorem tfDraws_at (s : U64) : ∀ n k,
    tfDraws n (tfAt s k) = .ok ((List.range n).map fun i => half (tfBlocks s ((k + i) / 16)) ((k + i) % 16), tfAt s (k + n)) := by
  intro n
  induction n with
  | zero => intro k; rfl
  | succ n ih =>
    intro k
    rw [tfDraws, tfGet_at s k, Res.bind_ok]
    simp only
    rw [ih (k + 1), Res.bind_ok]
    simp only [List.range_succ_eq_map, List.map_cons, List.map_map, Function.comp_def, Nat.add_zero, Nat.succ_eq_add_one]
    congr 2
    · congr 1
      apply List.map_congr_left
      intro i _
      rw [show k + 1 + i = k + (i + 1) by omega]
    · rw [show k + 1 + n = k + (n + 1) by omega]

theorem tf_consts : leBytes8 112 = 0x7776757473727170 ∧ leBytes8 120 = 0x7f7e7d7c7b7a7978 := by decide

/-- C64 (and C26 for threefish).  Whatever the state held before, seeding succeeds and the draws are
the 32-bit halves, low half first and without gaps, of the blocks `F(s)`, `E(F(s))`, `E(E(F(s)))`,
... where `F` and `E` are Threefish-512 under the same fixed key (bytes 64..127) with tweaks
differing in the first word, and `F` is applied to the seed followed by zeros. -/
theorem C64_threefish_ofb (s : U64) : ∃ st, (∀ old, tfSet old s = .ok st) ∧
    ∀ n, ∃ st', tfDraws n st = .ok ((List.range n).map fun k => half (tfBlocks s (k / 16)) (k % 16), st') := by
  refine ⟨tfAt s 0, fun old => ?_, fun n => ⟨tfAt s n, ?_⟩⟩
  · unfold tfSet
    rw [C61_block64, Res.bind_ok, tf_consts.1, tf_consts.2]
    have : fn ⟨s, 0, 0, 0, 0, 0, 0, 0⟩ = fun i => if i = 0 then s else 0 := state_ext rfl rfl rfl rfl rfl rfl rfl rfl
    rw [this]
    unfold tfAt
    rw [if_pos rfl]
    unfold tfBlocks
    rw [Function.iterate_zero_apply]
  · have := tfDraws_at s n 0
    simp only [Nat.zero_add] at this
    exact this

/-- The sixteen halves determine the block. -/
theorem half_inj (b b' : State) (h : ∀ j < 16, half b j = half b' j) : b = b' := by
  funext i
  have h0 := h (2 * i.val) (by omega)
  have h1 := h (2 * i.val + 1) (by omega)
  unfold half at h0 h1
  simp only [show 2 * i.val / 2 = i.val by omega, show (2 * i.val + 1) / 2 = i.val by omega, show 2 * i.val % 2 = 0 by omega,
    show (2 * i.val + 1) % 2 = 1 by omega, if_true, Nat.one_ne_zero, if_false] at h0 h1
  have e : Fin.ofNat 8 i.val = i := by apply Fin.ext; simp [Fin.ofNat]
  rw [e] at h0 h1
  have h0 := congrArg BitVec.toNat h0
  have h1 := congrArg BitVec.toNat h1
  simp only [BitVec.toNat_ofNat] at h0 h1
  apply BitVec.eq_of_toNat_eq
  have l0 := (b i).isLt
  have l1 := (b' i).isLt
  omega

/-- C64.  Different seeds (all 64 bits count) give streams that differ within the first sixteen draws,
and in every later group of sixteen draws. -/
theorem C64_threefish_seeds (s s' : U64) (h : s ≠ s') (n : Nat) :
    ∃ j < 16, half (tfBlocks s n) j ≠ half (tfBlocks s' n) j := by
  apply Classical.byContradiction
  intro hn
  have hall : ∀ j < 16, half (tfBlocks s n) j = half (tfBlocks s' n) j := by
    intro j hj
    apply Classical.byContradiction
    intro hne
    exact hn ⟨j, hj, hne⟩
  have hb := half_inj _ _ hall
  have enc_inj : ∀ key t0 t1 x y, Threefish.encrypt key t0 t1 x = Threefish.encrypt key t0 t1 y → x = y :=
    fun key t0 t1 x y e => after_inj key t0 t1 x y 72 (addKey_inj key t0 t1 72 _ _ e)
  have it : ∀ n x y, tfE^[n] x = tfE^[n] y → x = y := by
    intro n
    induction n with
    | zero => intro x y e; exact e
    | succ n ih =>
      intro x y e
      rw [Function.iterate_succ_apply', Function.iterate_succ_apply'] at e
      exact ih _ _ (enc_inj _ _ _ _ _ e)
  have h1 := enc_inj _ _ _ _ _ (it n _ _ hb)
  exact h (congrFun h1 0)

set_option maxRecDepth 100000 in
example : (tfSet ⟨0, 0, tfKey, tfKey, 3⟩ 1 >>= tfDraws 18).map (fun r => (r.1.take 3, r.1.drop 15, r.2.pos)) =
    .ok ([0x13ed711c, 0xcf5b8ae3, 0x724d4336], [0x7826cde8, 0xd197e4f7, 0xfb7a2ffa], 8) := by decide +kernel
set_option maxRecDepth 100000 in
example : (tfBlock64 1 2 tfKey tfKey).map T8.toList = tfBlockRef 1 2 tfKey.toList tfKey.toList := by decide +kernel
set_option maxRecDepth 100000 in
example : (tfBlock64 1 2 tfKey tfKey).map T8.x0 = .ok 0x316a5c1ba032e5ea := by decide +kernel

end Dh
