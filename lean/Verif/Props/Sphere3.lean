import Verif.Model.Sphere3
import Verif.Proof.Tally
import Verif.Props.MinDist
/-
C71: the 3d spheres test.
-/
namespace Dh

/-- Point `i` of the test: three consecutive draws scaled to the cube of side 1000. -/
def Spec.cubePoint (u : ℕ → ℝ) (i : Nat) : List ℝ := [1000 * u (3 * i), 1000 * u (3 * i + 1), 1000 * u (3 * i + 2)]

/-- The distance of two of the points. -/
noncomputable def Spec.cubeDist (u : ℕ → ℝ) (i j : Nat) : ℝ := Spec.euclidDist 3 (Spec.cubePoint u i) (Spec.cubePoint u j)

theorem cubeDist_eq (u : ℕ → ℝ) (j k : Nat) : Spec.cubeDist u j k =
    Real.sqrt ((1000 * u (3 * j) - 1000 * u (3 * k)) * (1000 * u (3 * j) - 1000 * u (3 * k)) +
      (1000 * u (3 * j + 1) - 1000 * u (3 * k + 1)) * (1000 * u (3 * j + 1) - 1000 * u (3 * k + 1)) +
      (1000 * u (3 * j + 2) - 1000 * u (3 * k + 2)) * (1000 * u (3 * j + 2) - 1000 * u (3 * k + 2))) := by
  rw [Spec.cubeDist, Spec.euclidDist]
  congr 1
  simp [Finset.sum_range_succ, Spec.cubePoint]
  ring

/-- The running minimum over a set of pairs `(k, j)`, `k < j`, as the code keeps it. -/
structure SphMin (u : ℕ → ℝ) (S : Nat → Nat → Prop) (rmin r3min : ℝ) : Prop where
  le : ∀ k j, S k j → rmin ≤ Spec.cubeDist u k j
  cap : rmin ≤ 2000
  att : (rmin = 2000 ∧ r3min = 0) ∨ ∃ k j, S k j ∧ rmin = Spec.cubeDist u k j ∧ r3min = Spec.cubeDist u k j ^ 3

theorem sphInner_spec (u : ℕ → ℝ) (c3 : List (List ℝ)) (j : Nat) (hj : j < c3.length)
    (hc : ∀ i ≤ j, c3.getD i [] = Spec.cubePoint u i) : ∀ (k1 : Nat), k1 ≤ j → ∀ (rmin r3min : ℝ),
    SphMin u (fun a b => a < b ∧ (b < j ∨ b = j ∧ k1 ≤ a)) rmin r3min →
    ∃ rmin' r3min', sphInner c3 j k1 rmin r3min = .ok (rmin', r3min') ∧ SphMin u (fun a b => a < b ∧ b ≤ j) rmin' r3min' := by
  intro k1
  induction k1 with
  | zero =>
    intro _ rmin r3min h
    refine ⟨rmin, r3min, rfl, fun k b hb => h.le k b ⟨hb.1, by omega⟩, h.cap, ?_⟩
    rcases h.att with e | ⟨k, b, hkb, e⟩
    · exact .inl e
    · exact .inr ⟨k, b, ⟨hkb.1, by omega⟩, e⟩
  | succ k ih =>
    intro hk rmin r3min h
    have hdist : Spec.cubeDist u k j = Spec.cubeDist u j k := euclidDist_symm 3 _ _
    have e1 : rd c3 j = .ok (Spec.cubePoint u j) := by rw [rd_dflt [] hj, hc j (le_refl _)]
    have e2 : rd c3 k = .ok (Spec.cubePoint u k) := by rw [rd_dflt [] (by omega), hc k (by omega)]
    rw [sphInner, e1, e2]
    simp only [Res.bind_ok, Spec.cubePoint, rd, List.getElem?_cons_zero, List.getElem?_cons_succ]
    rw [← cubeDist_eq u j k, ← hdist]
    generalize hr2 : (1000 * u (3 * j) - 1000 * u (3 * k)) * (1000 * u (3 * j) - 1000 * u (3 * k)) +
      (1000 * u (3 * j + 1) - 1000 * u (3 * k + 1)) * (1000 * u (3 * j + 1) - 1000 * u (3 * k + 1)) +
      (1000 * u (3 * j + 2) - 1000 * u (3 * k + 2)) * (1000 * u (3 * j + 2) - 1000 * u (3 * k + 2)) = r2
    have hr2' : r2 = Spec.cubeDist u k j ^ 2 := by
      rw [hdist, cubeDist_eq, hr2, Real.sq_sqrt]
      rw [← hr2]
      nlinarith [mul_self_nonneg (1000 * u (3 * j) - 1000 * u (3 * k)), mul_self_nonneg (1000 * u (3 * j + 1) - 1000 * u (3 * k + 1)),
        mul_self_nonneg (1000 * u (3 * j + 2) - 1000 * u (3 * k + 2))]
    split
    · rename_i hlt
      refine ih (by omega) _ _ ⟨?_, by linarith [h.cap], .inr ⟨k, j, ⟨by omega, .inr ⟨rfl, le_refl _⟩⟩, rfl, ?_⟩⟩
      · intro a b hab
        by_cases hk' : a = k ∧ b = j
        · rw [hk'.1, hk'.2]
        · exact hlt.le.trans (h.le a b ⟨hab.1, by omega⟩)
      · rw [hr2']; ring
    · rename_i hge
      refine ih (by omega) _ _ ⟨?_, h.cap, ?_⟩
      · intro a b hab
        by_cases hk' : a = k ∧ b = j
        · rw [hk'.1, hk'.2]; exact not_lt.1 hge
        · exact h.le a b ⟨hab.1, by omega⟩
      · rcases h.att with e | ⟨a, b, hab, e⟩
        · exact .inl e
        · exact .inr ⟨a, b, ⟨hab.1, by omega⟩, e⟩

theorem sphOuter_spec (u : ℕ → ℝ) (points : Nat) : ∀ (todo j : Nat) (c3 : List (List ℝ)) (rmin r3min : ℝ), j + todo = points →
    c3.length = points → (∀ i < j, c3.getD i [] = Spec.cubePoint u i) → SphMin u (fun a b => a < b ∧ b < j) rmin r3min →
    ∃ rmin' r3min', sphOuter u todo j c3 rmin r3min = .ok (rmin', r3min') ∧ SphMin u (fun a b => a < b ∧ b < points) rmin' r3min' := by
  intro todo
  induction todo with
  | zero =>
    intro j c3 rmin r3min hj _ _ h
    obtain rfl : j = points := by omega
    exact ⟨rmin, r3min, rfl, h⟩
  | succ todo ih =>
    intro j c3 rmin r3min hj hlen hc h
    have hlen' : (c3.set j (Spec.cubePoint u j)).length = points := by simpa using hlen
    have hc' : ∀ i ≤ j, (c3.set j (Spec.cubePoint u j)).getD i [] = Spec.cubePoint u i := by
      intro i hi
      rw [getD_set _ _ _ _ (by omega)]
      split
      · subst i; rfl
      · exact hc i (by omega)
    obtain ⟨r, r3, h1, h2⟩ := sphInner_spec u _ j (by omega) hc' j (le_refl _) rmin r3min
      ⟨fun a b hab => h.le a b ⟨hab.1, by omega⟩, h.cap, by
        rcases h.att with e | ⟨a, b, hab, e⟩
        · exact .inl e
        · exact .inr ⟨a, b, ⟨hab.1, .inl hab.2⟩, e⟩⟩
    obtain ⟨r', r3', h3, h4⟩ := ih (j + 1) _ r r3 (by omega) hlen' (fun i hi => hc' i (by omega))
      ⟨fun a b hab => h2.le a b ⟨hab.1, by omega⟩, h2.cap, by
        rcases h2.att with e | ⟨a, b, hab, e⟩
        · exact .inl e
        · exact .inr ⟨a, b, ⟨hab.1, by omega⟩, e⟩⟩
    refine ⟨r', r3', ?_, h4⟩
    rw [sphOuter, wr, if_pos (by omega)]
    simp only [Res.bind_ok]
    rw [show [1000 * u (3 * j), 1000 * u (3 * j + 1), 1000 * u (3 * j + 2)] = Spec.cubePoint u j from rfl, h1]
    exact h3

theorem cubeDist_lt (u : ℕ → ℝ) (hu : ∀ i, 0 ≤ u i ∧ u i ≤ 1) (j k : Nat) : Spec.cubeDist u j k < 2000 := by
  rw [cubeDist_eq, Real.sqrt_lt' (by norm_num)]
  have hb : ∀ a b, (1000 * u a - 1000 * u b) * (1000 * u a - 1000 * u b) ≤ 1000000 := by
    intro a b
    have ha := hu a
    have hb := hu b
    have h1 : |1000 * u a - 1000 * u b| ≤ 1000 := by rw [abs_le]; constructor <;> linarith [ha.1, ha.2, hb.1, hb.2]
    have h2 := mul_le_mul h1 h1 (abs_nonneg _) (by norm_num)
    rw [abs_mul_abs_self] at h2
    linarith
  have h1 := hb (3 * j) (3 * k)
  have h2 := hb (3 * j + 1) (3 * k + 1)
  have h3 := hb (3 * j + 2) (3 * k + 2)
  nlinarith

/-- **C71.** Whatever the draws in the unit interval and whatever the number of points (at least two; the code uses 4000), the 3d
spheres test takes three draws per point and turns the cube of the smallest distance `d` of two points of the cube of side 1000
into the p-value `1 - exp(-d³/30)`, which lies in `[0, 1)`. -/
theorem C71_3dsphere (u : ℕ → ℝ) (hu : ∀ i, 0 ≤ u i ∧ u i ≤ 1) (points : Nat) (hp : 2 ≤ points) (c3 : List (List ℝ))
    (hc : c3.length = points) :
    ∃ d, diehard3dsphere u points c3 = .ok (1 - Real.exp (-d ^ 3 / 30)) ∧
      (∀ i j, i < j → j < points → d ≤ Spec.cubeDist u i j) ∧ (∃ i j, i < j ∧ j < points ∧ d = Spec.cubeDist u i j) ∧
      0 ≤ 1 - Real.exp (-d ^ 3 / 30) ∧ 1 - Real.exp (-d ^ 3 / 30) < 1 := by
  obtain ⟨r, r3, h1, h2⟩ := sphOuter_spec u points points 0 c3 2000 0 (by omega) hc (by omega)
    ⟨fun a b h => absurd h.2 (by omega), le_refl _, .inl ⟨rfl, rfl⟩⟩
  have hatt : ∃ k j, (k < j ∧ j < points) ∧ r = Spec.cubeDist u k j ∧ r3 = Spec.cubeDist u k j ^ 3 := by
    rcases h2.att with e | e
    · have := h2.le 0 1 ⟨by omega, by omega⟩
      have := cubeDist_lt u hu 0 1
      linarith [e.1]
    · exact e
  obtain ⟨k, j, hkj, e1, e2⟩ := hatt
  have hd0 : 0 ≤ r := by rw [e1, Spec.cubeDist, Spec.euclidDist]; exact Real.sqrt_nonneg _
  refine ⟨r, ?_, fun i j hi hj => h2.le i j ⟨hi, hj⟩, ⟨k, j, hkj.1, hkj.2, e1⟩, ?_, ?_⟩
  · rw [diehard3dsphere, h1]
    simp only [Res.bind_ok]
    rw [e2, e1]
  · have : -r ^ 3 / 30 ≤ 0 := by
      have := pow_nonneg hd0 3
      linarith
    linarith [Real.exp_le_one_iff.2 this]
  · linarith [Real.exp_pos (-r ^ 3 / 30)]

/-- Two points at distance 10: `d³ = 1000`. -/
example : diehard3dsphere (fun i => if i = 3 then 0.01 else 0) 2 [[], []] = .ok (1 - Real.exp (-1000 / 30)) := by
  have h100 : Real.sqrt 100 = 10 := by rw [show (100 : ℝ) = 10 ^ 2 by norm_num, Real.sqrt_sq (by norm_num)]
  norm_num [diehard3dsphere, sphOuter, sphInner, wr, rd, h100]

end Dh
