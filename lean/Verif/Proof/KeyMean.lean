import Verif.Proof.KeyBounds
import Verif.Proof.FillLaw
/-
Trees of independent keys that are uniform on 1, ..., N.
-/
namespace Dh
open Spec

/-! ### Trees as trials -/

/-- The keys of a sequence of members of `Fin N`. -/
def keyOf {N : Nat} (s : Nat → Fin N) : Nat → Nat := fun i => (s i : ℕ) + 1

/-- Keys used by a tree of height `H`, its index and its position. -/
def keyUsed (H : Nat) {N : Nat} (s : Nat → Fin N) : Nat := (keyWalk H 16 [] (keyOf s)).1
def keyIndex (H : Nat) {N : Nat} (s : Nat → Fin N) : Nat := (keyWalk H 16 [] (keyOf s)).1 - 1
def keyPosition (H : Nat) {N : Nat} (s : Nat → Fin N) : Nat := (keyWalk H 16 [] (keyOf s)).2

theorem keyWalk_le (H : Nat) : ∀ (fuel : Nat) (l : List Nat) (s : Nat → Nat), (keyWalk H fuel l s).1 ≤ fuel
  | 0, _, _ => le_rfl
  | fuel + 1, l, s => by
    rw [keyWalk]
    split
    · exact Nat.succ_le_succ (keyWalk_le H fuel _ _)
    · show 1 ≤ _; omega

theorem keyWalk_adapt (H : Nat) : ∀ (fuel : Nat) (l : List Nat) (s s' : Nat → Nat), (∀ i < (keyWalk H fuel l s).1, s i = s' i) →
    keyWalk H fuel l s' = keyWalk H fuel l s
  | 0, _, _, _, _ => rfl
  | fuel + 1, l, s, s', e => by
    rw [keyWalk] at e
    by_cases h : fits H (l ++ [s 0]) = true
    · rw [if_pos h] at e
      have e0 : s 0 = s' 0 := e 0 (Nat.succ_pos _)
      have ih := keyWalk_adapt H fuel (l ++ [s 0]) (dropSeq 1 s) (dropSeq 1 s') fun i hi => e (1 + i) (by simp only; omega)
      rw [keyWalk, keyWalk, ← e0, if_pos h, if_pos h, ih]
    · rw [if_neg h] at e
      have e0 : s 0 = s' 0 := e 0 (by simp)
      rw [keyWalk, keyWalk, ← e0, if_neg h, if_neg h]

theorem keyIndex_stops (H N : Nat) : Stops 16 (keyUsed H (N := N)) (keyIndex H) where
  bound s := keyWalk_le H 16 _ _
  adapt s s' e := by
    have := keyWalk_adapt H 16 [] (keyOf s) (keyOf s') fun i hi => by rw [keyOf, keyOf, e i hi]
    simp only [keyUsed, keyIndex, this, and_self]

theorem keyPosition_stops (H N : Nat) : Stops 16 (keyUsed H (N := N)) (keyPosition H) where
  bound s := keyWalk_le H 16 _ _
  adapt s s' e := by
    have := keyWalk_adapt H 16 [] (keyOf s) (keyOf s') fun i hi => by rw [keyOf, keyOf, e i hi]
    simp only [keyUsed, keyPosition, this, and_self]

theorem keyUsed_pos (H : Nat) {N : Nat} (s : Nat → Fin N) : 0 < keyUsed H s :=
  (keyWalk_gt H 16 0 [] (keyOf s) (by norm_num) (fits_nil H)).2 (fits_nil H)

theorem key_range (H : Nat) (h4 : H ≤ 4) {N : Nat} (s : Nat → Fin N) : keyIndex H s < 16 ∧ keyPosition H s < 2 ^ H := by
  have h1 := keyUsed_pos H s
  have h2 := keyWalk_le H 16 [] (keyOf s)
  rw [keyUsed] at h1
  refine ⟨by rw [keyIndex]; omega, ?_⟩
  have hp : 2 ^ H ≤ 16 := le_trans (Nat.pow_le_pow_right (by norm_num) h4) (by norm_num)
  have h := (keyWalk_eq H 16 ((keyWalk H 16 [] (keyOf s)).1 - 1) (keyPosition H s) [] (keyOf s) (by omega) (by simpa using hp) (fits_nil H)).1
    (by rw [Nat.sub_add_cancel h1]; rfl)
  rw [← h.2.2]
  exact endPos_lt _ _ _

/-! ### Means over keys -/

theorem mean_cons {A : Type*} [Fintype A] [Nonempty A] (a0 : A) (B : Nat) (F : (Nat → A) → ℝ) :
    (mean fun ω : Fin (B + 1) → A => F (padSeq a0 ω)) =
      (∑ a : A, mean fun ω : Fin B → A => F (consSeq a (padSeq a0 ω))) / Fintype.card A := by
  have e := mean_equiv (Fin.consEquiv fun _ : Fin (B + 1) => A) (fun ω : Fin (B + 1) → A => F (padSeq a0 ω))
  rw [← e]
  have h : ∀ q : A × (Fin B → A), padSeq a0 (Fin.consEquiv (fun _ : Fin (B + 1) => A) q) = consSeq q.1 (padSeq a0 q.2) := by
    intro q
    funext i
    cases i with
    | zero => simp [padSeq, consSeq, Fin.consEquiv]
    | succ i =>
      by_cases hi : i < B
      · simp only [padSeq, consSeq, dif_pos hi, dif_pos (Nat.succ_lt_succ hi)]
        exact Fin.cons_succ (α := fun _ : Fin (B + 1) => A) q.1 q.2 ⟨i, hi⟩
      · simp only [padSeq, consSeq, dif_neg hi, dif_neg (fun h => hi (Nat.lt_of_succ_lt_succ h))]
  simp only [h]
  unfold mean
  rw [Fintype.sum_prod_type, Fintype.card_prod, ← Finset.sum_div, div_div]
  push_cast
  rw [mul_comm]

theorem mean_seqSum {N : Nat} (hN : 0 < N) : ∀ (B : Nat) (G : List Nat → Nat → ℝ),
    (mean fun ω : Fin (B + 1) → Fin N => G (firstKeys (keyOf (padSeq ⟨0, hN⟩ ω)) B) (keyOf (padSeq ⟨0, hN⟩ ω) B)) =
      (seqSum 0 N B fun l => ∑ z ∈ Finset.range N, G l (0 + 1 + z)) / (N : ℝ) ^ (B + 1)
  | 0, G => by
    have : Nonempty (Fin N) := ⟨⟨0, hN⟩⟩
    rw [mean_cons ⟨0, hN⟩ 0 fun s => G (firstKeys (keyOf s) 0) (keyOf s 0)]
    have e : ∀ a : Fin N, (mean fun ω : Fin 0 → Fin N => G (firstKeys (keyOf (consSeq a (padSeq ⟨0, hN⟩ ω))) 0) (keyOf (consSeq a (padSeq ⟨0, hN⟩ ω)) 0)) =
        G [] (0 + 1 + (a : ℕ)) := by
      intro a
      rw [← mean_const (Ω := Fin 0 → Fin N) (G [] (0 + 1 + (a : ℕ)))]
      refine mean_congr fun ω => ?_
      rw [Nat.zero_add, Nat.add_comm]; rfl
    rw [Finset.sum_congr rfl fun a _ => e a, Fintype.card_fin, Fin.sum_univ_eq_sum_range fun a => G [] (0 + 1 + a), seqSum, zero_add, pow_one]
  | B + 1, G => by
    have : Nonempty (Fin N) := ⟨⟨0, hN⟩⟩
    rw [mean_cons ⟨0, hN⟩ (B + 1) fun s => G (firstKeys (keyOf s) (B + 1)) (keyOf s (B + 1))]
    have e : ∀ a : Fin N, (mean fun ω : Fin (B + 1) → Fin N => G (firstKeys (keyOf (consSeq a (padSeq ⟨0, hN⟩ ω))) (B + 1))
        (keyOf (consSeq a (padSeq ⟨0, hN⟩ ω)) (B + 1))) =
        (seqSum 0 N B fun l => ∑ z ∈ Finset.range N, G ((0 + 1 + (a : ℕ)) :: l) (0 + 1 + z)) / (N : ℝ) ^ (B + 1) := by
      intro a
      rw [← mean_seqSum hN B fun l z => G ((0 + 1 + (a : ℕ)) :: l) z]
      refine mean_congr fun ω => ?_
      have h1 : keyOf (consSeq a (padSeq ⟨0, hN⟩ ω)) 0 = 0 + 1 + (a : ℕ) := by show (a : ℕ) + 1 = _; omega
      have h2 : dropSeq 1 (keyOf (consSeq a (padSeq ⟨0, hN⟩ ω))) = keyOf (padSeq ⟨0, hN⟩ ω) := by
        funext i; rw [dropSeq, Nat.add_comm 1 i]; rfl
      rw [firstKeys_succ, h1, h2]
      rfl
    rw [Finset.sum_congr rfl fun a _ => e a, Fintype.card_fin, ← Finset.sum_div, div_div,
      Fin.sum_univ_eq_sum_range fun a => seqSum 0 N B fun l => ∑ z ∈ Finset.range N, G ((0 + 1 + a) :: l) (0 + 1 + z), seqSum, ← pow_succ]

/-- The joint law of index and position. -/
theorem key_joint (H c q m : Nat) {N : Nat} (hN : 0 < N) (h4 : H ≤ 4) (hc : c < 16) (hm : 16 ≤ m) :
    (mean fun ω : Fin m → Fin N => if keyIndex H (padSeq ⟨0, hN⟩ ω) = c ∧ keyPosition H (padSeq ⟨0, hN⟩ ω) = q then (1 : ℝ) else 0) =
      countEnd H q c 0 N / (N : ℝ) ^ (c + 1) := by
  have : Nonempty (Fin N) := ⟨⟨0, hN⟩⟩
  have hp : 2 ^ H ≤ 16 := le_trans (Nat.pow_le_pow_right (by norm_num) h4) (by norm_num)
  have key : ∀ s : Nat → Fin N, (keyIndex H s = c ∧ keyPosition H s = q) ↔ fits H (firstKeys (keyOf s) c) = true ∧
      fits H (firstKeys (keyOf s) c ++ [keyOf s c]) = false ∧ endPos H (firstKeys (keyOf s) c) (keyOf s c) = q := by
    intro s
    rw [← List.nil_append (firstKeys (keyOf s) c), ← keyWalk_eq H 16 c q [] (keyOf s) hc (by simpa using hp) (fits_nil H), Prod.ext_iff]
    have := keyUsed_pos H s
    rw [keyUsed] at this
    rw [keyIndex, keyPosition]
    simp only
    omega
  simp only [key]
  have e := mean_first (⟨0, hN⟩ : Fin N) (m := c + 1) (m' := m) (F := fun s => if fits H (firstKeys (keyOf s) c) = true ∧
      fits H (firstKeys (keyOf s) c ++ [keyOf s c]) = false ∧ endPos H (firstKeys (keyOf s) c) (keyOf s c) = q then (1 : ℝ) else 0) ?_ (by omega)
  · rw [e, mean_seqSum hN c fun l z => if fits H l = true ∧ fits H (l ++ [z]) = false ∧ endPos H l z = q then (1 : ℝ) else 0]
    rfl
  · intro s s' h
    have h1 : firstKeys (keyOf s) c = firstKeys (keyOf s') c := List.map_congr_left fun i hi => by
      rw [keyOf, keyOf, h i (by have := List.mem_range.1 hi; omega)]
    have h2 : keyOf s c = keyOf s' c := by rw [keyOf, keyOf, h c (by omega)]
    simp only [h1, h2]

/-! ### Factorials and powers -/

theorem desc_pow (N : Nat) : ∀ k ≤ N, (N : ℝ) ^ k * (1 - k * (k - 1) / 2 / N) ≤ N.descFactorial k
  | 0, _ => by simp
  | k + 1, hk => by
    have ih := desc_pow N k (by omega)
    have hN : (0 : ℝ) < N := by exact_mod_cast (by omega : 0 < N)
    have hk' : (k : ℝ) ≤ N := by exact_mod_cast (by omega : k ≤ N)
    have e : (N.descFactorial (k + 1) : ℝ) = (N - k) * N.descFactorial k := by
      rw [Nat.descFactorial_succ]; push_cast [Nat.cast_sub (by omega : k ≤ N)]; ring
    rw [e]
    refine le_trans ?_ (mul_le_mul_of_nonneg_left ih (by linarith))
    have h0 : (0 : ℝ) ≤ (k : ℝ) * (k * (k - 1) / 2) := by
      rcases k with _ | k
      · simp
      · push_cast
        have : ((k : ℝ) + 1 - 1) = k := by ring
        rw [this]; positivity
    have e2 : ((N : ℝ) - k) * (N ^ k * (1 - k * (k - 1) / 2 / N)) =
        N ^ (k + 1) * (1 - (k + 1) * k / 2 / N) + N ^ k * (k * (k * (k - 1) / 2)) / N := by
      field_simp; ring
    push_cast
    rw [e2]
    have : 0 ≤ (N : ℝ) ^ k * (k * (k * (k - 1) / 2)) / N := div_nonneg (mul_nonneg (by positivity) h0) hN.le
    have e3 : ((k : ℝ) + 1) * (k + 1 - 1) = (k + 1) * k := by ring
    rw [e3]
    linarith

theorem asc_desc (N : Nat) : ∀ k ≤ N, (N.ascFactorial k : ℝ) * N.descFactorial k ≤ (N : ℝ) ^ (2 * k)
  | 0, _ => by simp
  | k + 1, hk => by
    have ih := asc_desc N k (by omega)
    have hk' : (k : ℝ) ≤ N := by exact_mod_cast (by omega : k ≤ N)
    have e : (N.descFactorial (k + 1) : ℝ) = (N - k) * N.descFactorial k := by
      rw [Nat.descFactorial_succ]; push_cast [Nat.cast_sub (by omega : k ≤ N)]; ring
    have e' : (N.ascFactorial (k + 1) : ℝ) = (N + k) * N.ascFactorial k := by
      rw [Nat.ascFactorial_succ]; push_cast; ring
    have e2 : (N : ℝ) ^ (2 * (k + 1)) = N ^ 2 * N ^ (2 * k) := by rw [← pow_add]; congr 1; omega
    rw [e, e', e2]
    have h0 : (0 : ℝ) ≤ N.ascFactorial k * N.descFactorial k := by positivity
    calc ((N : ℝ) + k) * N.ascFactorial k * ((N - k) * N.descFactorial k) = (N ^ 2 - k ^ 2) * (N.ascFactorial k * N.descFactorial k) := by ring
      _ ≤ N ^ 2 * (N.ascFactorial k * N.descFactorial k) := mul_le_mul_of_nonneg_right (by nlinarith) h0
      _ ≤ _ := mul_le_mul_of_nonneg_left ih (by positivity)

theorem factorial_near (N k : Nat) (hN : 2 ^ 14 ≤ N) (hk : k ≤ 16) :
    (N : ℝ) ^ k * (1 - 121 / N) ≤ N.descFactorial k ∧ (N.ascFactorial k : ℝ) ≤ (N : ℝ) ^ k * (1 + 121 / N) := by
  have hN' : (16384 : ℝ) ≤ N := by exact_mod_cast (by omega : 16384 ≤ N)
  have h0 : (0 : ℝ) < N := by linarith
  have hkk : (k : ℝ) * (k - 1) / 2 ≤ 120 := by
    have h1 : (k : ℝ) ≤ 16 := by exact_mod_cast hk
    have h2 : (0 : ℝ) ≤ k := by positivity
    nlinarith
  have hd : (N : ℝ) ^ k * (1 - 120 / N) ≤ N.descFactorial k := by
    refine le_trans (mul_le_mul_of_nonneg_left ?_ (by positivity)) (desc_pow N k (by omega))
    have := div_le_div_of_nonneg_right hkk h0.le
    linarith
  have h120 : (120 : ℝ) / N ≤ 121 / N := div_le_div_of_nonneg_right (by norm_num) h0.le
  refine ⟨le_trans (mul_le_mul_of_nonneg_left (by linarith) (by positivity)) hd, ?_⟩
  have hs : (120 : ℝ) / N ≤ 120 / 16384 := div_le_div_of_nonneg_left (by norm_num) (by norm_num) hN'
  have hone : 1 ≤ (1 + 121 / (N : ℝ)) * (1 - 120 / N) := by
    have : (1 + 121 / (N : ℝ)) * (1 - 120 / N) - 1 = (N - 14520) / N ^ 2 := by field_simp; ring
    have : 0 ≤ ((N : ℝ) - 14520) / N ^ 2 := div_nonneg (by linarith) (by positivity)
    linarith
  have hpk : (0 : ℝ) < (N : ℝ) ^ k := by positivity
  have hpos : 0 < 1 - 120 / (N : ℝ) := by linarith
  have hA : (0 : ℝ) ≤ N.ascFactorial k := by positivity
  have had := asc_desc N k (by omega)
  have e : (N : ℝ) ^ (2 * k) = N ^ k * N ^ k := by rw [← pow_add]; congr 1; omega
  rw [e] at had
  have h3 : (N.ascFactorial k : ℝ) * (N ^ k * (1 - 120 / N)) ≤ N ^ k * N ^ k := le_trans (mul_le_mul_of_nonneg_left hd hA) had
  have h4 : (N.ascFactorial k : ℝ) * (1 - 120 / N) ≤ N ^ k := by
    have : (N : ℝ) ^ k * (N.ascFactorial k * (1 - 120 / N)) ≤ N ^ k * N ^ k := by linarith
    exact le_of_mul_le_mul_left this hpk
  have h5 : (N : ℝ) ^ k ≤ N ^ k * ((1 + 121 / N) * (1 - 120 / N)) := le_mul_of_one_le_right hpk.le hone
  refine le_of_mul_le_mul_right (a := 1 - 120 / (N : ℝ)) ?_ hpos
  linarith

theorem countEnd_near (H q c N : Nat) (hN : 2 ^ 14 ≤ N) (hc : c < 16) (hq : q < 2 ^ H) :
    |countEnd H q c 0 N / (N : ℝ) ^ (c + 1) - dropLaw H c| ≤ 121 / N * dropLaw H c := by
  obtain ⟨-, h1, h2⟩ := countEnd_bounds H q c 0 N hq
  obtain ⟨h3, h4⟩ := factorial_near N (c + 1) hN (by omega)
  have h0 : (0 : ℝ) < N := by exact_mod_cast (by omega : 0 < N)
  have hp : (0 : ℝ) < (N : ℝ) ^ (c + 1) := by positivity
  have hd := dropLaw_nonneg H c
  have h5 := le_trans (mul_le_mul_of_nonneg_right h3 hd) h1
  have h6 := le_trans h2 (mul_le_mul_of_nonneg_right h4 hd)
  rw [abs_le]
  constructor
  · rw [le_sub_iff_add_le, le_div_iff₀ hp]; linarith
  · rw [sub_le_iff_le_add, div_le_iff₀ hp]; linarith

theorem fitLaw_large : ∀ (h k : Nat), 2 ^ h ≤ k → fitLaw h k = 0
  | 0, k, hk => by rw [fitLaw, if_neg (by simp at hk; omega)]
  | h + 1, 0, hk => by have : 0 < 2 ^ (h + 1) := by positivity
                       omega
  | h + 1, k + 1, hk => by
    rw [fitLaw, Finset.sum_eq_zero, zero_div]
    intro p hp
    have hs := Finset.mem_antidiagonal.1 hp
    rw [pow_succ] at hk
    by_cases h1 : 2 ^ h ≤ p.1
    · rw [fitLaw_large h p.1 h1, zero_mul]
    · rw [fitLaw_large h p.2 (by omega), mul_zero]

/-- The law of the index. -/
theorem key_index (H c m : Nat) {N : Nat} (hN : 2 ^ 14 ≤ N) (h0 : 0 < N) (h4 : H ≤ 4) (hc : c < 16) (hm : 16 ≤ m) :
    |(mean fun ω : Fin m → Fin N => if keyIndex H (padSeq ⟨0, h0⟩ ω) = c then (1 : ℝ) else 0) - (fitLaw H c - fitLaw H (c + 1))| ≤
      121 / N * (fitLaw H c - fitLaw H (c + 1)) := by
  have e : ∀ ω : Fin m → Fin N, (if keyIndex H (padSeq ⟨0, h0⟩ ω) = c then (1 : ℝ) else 0) =
      ∑ q ∈ Finset.range (2 ^ H), if keyIndex H (padSeq ⟨0, h0⟩ ω) = c ∧ keyPosition H (padSeq ⟨0, h0⟩ ω) = q then (1 : ℝ) else 0 := by
    intro ω
    by_cases h : keyIndex H (padSeq ⟨0, h0⟩ ω) = c
    · simp only [h, true_and, if_true]
      rw [Finset.sum_ite_eq, if_pos (Finset.mem_range.2 (key_range H h4 _).2)]
    · simp [h]
  rw [mean_congr e, mean_sum, Finset.sum_congr rfl fun q _ => key_joint H c q m h0 h4 hc hm]
  have e2 : fitLaw H c - fitLaw H (c + 1) = ∑ q ∈ Finset.range (2 ^ H), dropLaw H c := by
    rw [Finset.sum_const, Finset.card_range, nsmul_eq_mul, dropLaw_eq]
    push_cast
    rw [mul_div_cancel₀ _ (by positivity)]
  rw [e2, ← Finset.sum_sub_distrib, Finset.mul_sum]
  exact (Finset.abs_sum_le_sum_abs _ _).trans (Finset.sum_le_sum fun q hq => countEnd_near H q c N hN hc (Finset.mem_range.1 hq))

/-- The law of the position. -/
theorem key_position (H q m : Nat) {N : Nat} (hN : 2 ^ 14 ≤ N) (h0 : 0 < N) (h4 : H ≤ 4) (hq : q < 2 ^ H) (hm : 16 ≤ m) :
    |(mean fun ω : Fin m → Fin N => if keyPosition H (padSeq ⟨0, h0⟩ ω) = q then (1 : ℝ) else 0) - 1 / 2 ^ H| ≤ 121 / N / 2 ^ H := by
  have e : ∀ ω : Fin m → Fin N, (if keyPosition H (padSeq ⟨0, h0⟩ ω) = q then (1 : ℝ) else 0) =
      ∑ c ∈ Finset.range 16, if keyIndex H (padSeq ⟨0, h0⟩ ω) = c ∧ keyPosition H (padSeq ⟨0, h0⟩ ω) = q then (1 : ℝ) else 0 := by
    intro ω
    by_cases h : keyPosition H (padSeq ⟨0, h0⟩ ω) = q
    · simp only [h, and_true, if_true]
      rw [Finset.sum_ite_eq, if_pos (Finset.mem_range.2 (key_range H h4 _).1)]
    · simp [h]
  have hp : 2 ^ H ≤ 16 := le_trans (Nat.pow_le_pow_right (by norm_num) h4) (by norm_num)
  rw [mean_congr e, mean_sum, Finset.sum_congr rfl fun c hc => key_joint H c q m h0 h4 (Finset.mem_range.1 hc) hm]
  have e2 : 1 / (2 : ℝ) ^ H = ∑ c ∈ Finset.range 16, dropLaw H c := by
    rw [Finset.sum_congr rfl fun c _ => dropLaw_eq H c, ← Finset.sum_div, Finset.sum_range_sub', fitLaw_zero, fitLaw_large H 16 hp, sub_zero]
  rw [div_eq_mul_one_div (121 / (N : ℝ)), e2, ← Finset.sum_sub_distrib, Finset.mul_sum]
  exact (Finset.abs_sum_le_sum_abs _ _).trans (Finset.sum_le_sum fun c hc => countEnd_near H q c N hN (Finset.mem_range.1 hc) hq)

end Dh
