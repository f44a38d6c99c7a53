import Verif.Proof.Operm5Lag
/-
The mean of a quadratic form of the counts of diehard_operm5.c.
-/
set_option linter.unusedSimpArgs false
namespace Dh
open Spec

/-! ### The sums -/

theorem lag_sum (l : Nat) (hl : l ≤ 5) (v : Nat) (hv : lagFast l (arrangements 5) = v) :
    ((arrangements (5 + l)).map fun L => ((op5Entry (listCell L 0) (listCell L l) : ℝ) + op5Entry (listCell L l) (listCell L 0))).sum =
      (v : ℝ) - 2 ^ 60 * (120 * Nat.ascFactorial 6 l : Nat) := by
  have h := lag_total l hl
  rw [hv] at h
  have h2 := congrArg (fun z : Int => (z : ℝ)) h
  simp only [Int.cast_sub, Int.cast_mul, Int.cast_pow, Int.cast_ofNat, Int.cast_natCast, Int.cast_list_sum] at h2
  rw [← h2, List.map_map]
  congr 1
  refine List.map_congr_left fun L _ => ?_
  simp

set_option maxRecDepth 100000 in
theorem op5_diag : ((List.range 120).map fun i => op5Entry i i).sum = 1156860515898460000 := by decide +kernel

set_option maxRecDepth 100000 in
theorem op5_total : ((List.range 120).map fun i => ((List.range 120).map fun j => op5Entry i j).sum).sum = -377424 := by decide +kernel

/-! ### Expansion of the quadratic form -/

/-- The number of `t < n` with `c t = i`. -/
def cellCount (c : Nat → Nat) (n i : Nat) : Nat := (List.range n).countP fun t => decide (c t = i)

theorem cellCount_eq (c : Nat → Nat) (i : Nat) : ∀ n, (cellCount c n i : ℝ) = ∑ t ∈ Finset.range n, if c t = i then (1 : ℝ) else 0
  | 0 => by simp [cellCount]
  | n + 1 => by
    rw [Finset.sum_range_succ, ← cellCount_eq c i n, cellCount, cellCount, List.range_succ, List.countP_append]
    by_cases h : c n = i <;> simp [h]

theorem sum_cellCount (c : Nat → Nat) (hc : ∀ t, c t < 120) (n : Nat) (φ : Nat → ℝ) :
    ∑ i ∈ Finset.range 120, (cellCount c n i : ℝ) * φ i = ∑ t ∈ Finset.range n, φ (c t) := by
  simp only [cellCount_eq, Finset.sum_mul]
  rw [Finset.sum_comm]
  refine Finset.sum_congr rfl fun t _ => ?_
  simp only [ite_mul, one_mul, zero_mul]
  rw [Finset.sum_ite_eq, if_pos (Finset.mem_range.2 (hc t))]

theorem quad_expand (c : Nat → Nat) (hc : ∀ t, c t < 120) (n : Nat) (Q : Nat → Nat → ℝ) (av : ℝ) :
    ∑ i ∈ Finset.range 120, ∑ j ∈ Finset.range 120, ((cellCount c n i : ℝ) - av) * Q i j * ((cellCount c n j : ℝ) - av) =
      ∑ s ∈ Finset.range n, ∑ t ∈ Finset.range n, Q (c s) (c t) -
        av * ∑ t ∈ Finset.range n, ∑ j ∈ Finset.range 120, (Q (c t) j + Q j (c t)) +
        av ^ 2 * ∑ i ∈ Finset.range 120, ∑ j ∈ Finset.range 120, Q i j := by
  have h1 : ∑ s ∈ Finset.range n, ∑ t ∈ Finset.range n, Q (c s) (c t) =
      ∑ i ∈ Finset.range 120, ∑ j ∈ Finset.range 120, (cellCount c n i : ℝ) * Q i j * (cellCount c n j : ℝ) := by
    rw [← sum_cellCount c hc n fun a => ∑ t ∈ Finset.range n, Q a (c t)]
    refine Finset.sum_congr rfl fun i _ => ?_
    rw [← sum_cellCount c hc n fun b => Q i b, Finset.mul_sum]
    exact Finset.sum_congr rfl fun j _ => by ring
  have h2 : ∑ t ∈ Finset.range n, ∑ j ∈ Finset.range 120, (Q (c t) j + Q j (c t)) =
      ∑ i ∈ Finset.range 120, ∑ j ∈ Finset.range 120, ((cellCount c n i : ℝ) * Q i j + Q i j * (cellCount c n j : ℝ)) := by
    rw [← sum_cellCount c hc n fun a => ∑ j ∈ Finset.range 120, (Q a j + Q j a)]
    simp only [Finset.sum_add_distrib, mul_add]
    congr 1
    · exact Finset.sum_congr rfl fun i _ => by rw [Finset.mul_sum]
    · simp only [Finset.mul_sum]
      rw [Finset.sum_comm]
      exact Finset.sum_congr rfl fun i _ => Finset.sum_congr rfl fun j _ => by ring
  rw [h1, h2, Finset.mul_sum, Finset.mul_sum, ← Finset.sum_sub_distrib, ← Finset.sum_add_distrib]
  refine Finset.sum_congr rfl fun i _ => ?_
  rw [Finset.mul_sum, Finset.mul_sum, ← Finset.sum_sub_distrib, ← Finset.sum_add_distrib]
  exact Finset.sum_congr rfl fun j _ => by ring

/-! ### The cells of a random order -/

/-- The draws: `x (σ 0), x (σ 1), ...` -/
def permSrc {N : Nat} (x : Fin N → UInt) (σ : Equiv.Perm (Fin N)) : Src := fun i => if h : i < N then x (σ ⟨i, h⟩) else 0

/-- The window of `m` places from `s`. -/
def places {N : Nat} (m s : Nat) (h : s + m ≤ N) : Fin m ↪ Fin N := ⟨fun i => ⟨s + i, by omega⟩, fun i j e => by
  simp only [Fin.mk.injEq] at e; exact Fin.ext (by omega)⟩

theorem permSrc_window {N : Nat} (x : Fin N → UInt) (σ : Equiv.Perm (Fin N)) {m s : Nat} (h : s + m ≤ N) (i : Fin m) :
    permSrc x σ (s + i) = x (σ (places m s h i)) := by
  rw [permSrc, dif_pos (by omega)]
  rfl

/-- The cell of five of the values `a`, from `o`. -/
def funCell {m : Nat} (a : Fin m → ℤ) (o : Nat) : Nat := kpermLoop 4 (fun i => if h : o + i < m then a ⟨o + i, h⟩ else 0) 0

theorem funCell_lt {m : Nat} (a : Fin m → ℤ) (o : Nat) : funCell a o < 120 := (kpermLoop_form 4 _ 0).2

theorem funCell_order {m : Nat} (a : Fin m → ℤ) (π : Equiv.Perm (Fin m)) (h : ∀ i j, a i ≤ a j ↔ π i ≤ π j) (o : Nat) (ho : o + 5 ≤ m) :
    funCell a o = listCell (permList π) o := by
  refine kpermLoop_congr 4 _ _ 0 ?_
  intro i hi j hj
  simp only
  rw [dif_pos (by omega), dif_pos (by omega), h, permList_getD π (o + i) (by omega), permList_getD π (o + j) (by omega), Int.ofNat_le]
  rfl

/-- The cell of the draws `s, ..., s+4`. -/
def drawCell (src : Src) (s : Nat) : Nat := kperm (fun i => src (s + i)) 0

theorem drawCell_lt (src : Src) (s : Nat) : drawCell src s < 120 := C31_range _ _

theorem drawCell_window {N : Nat} (x : Fin N → UInt) (σ : Equiv.Perm (Fin N)) {m s : Nat} (h : s + m ≤ N) (o : Nat) (ho : o + 5 ≤ m) :
    drawCell (permSrc x σ) (s + o) = funCell (fun i => (x (σ (places m s h i))).toInt) o := by
  refine kpermLoop_congr 4 _ _ 0 ?_
  intro i hi j hj
  simp only
  have e : ∀ i (hi : i < 5), permSrc x σ (s + o + (i + 0) % 5) = x (σ (places m s h ⟨o + i, by omega⟩)) := fun i hi => by
    rw [← permSrc_window x σ h ⟨o + i, by omega⟩, Nat.add_zero, Nat.mod_eq_of_lt hi, Nat.add_assoc]
  rw [e i hi, e j hj, dif_pos (by omega), dif_pos (by omega)]

theorem toInt_injective {N : Nat} {x : Fin N → UInt} (hx : Function.Injective x) : Function.Injective fun i => (x i).toInt :=
  fun _ _ e => hx (BitVec.eq_of_toInt_eq e)

/-- A function of the cells of overlapping samples has the mean of its values over the arrangements. -/
theorem mean_cells_near {N : Nat} (x : Fin N → UInt) (hx : Function.Injective x) (Φ : Nat → Nat → ℝ) {s l : Nat} (h : s + (5 + l) ≤ N) :
    (mean fun σ : Equiv.Perm (Fin N) => Φ (drawCell (permSrc x σ) s) (drawCell (permSrc x σ) (s + l))) =
      ((arrangements (5 + l)).map fun L => Φ (listCell L 0) (listCell L l)).sum / (5 + l).factorial := by
  rw [← mean_perm fun L => Φ (listCell L 0) (listCell L l)]
  rw [← mean_order (fun a => Φ (funCell a 0) (funCell a l)) (fun L => Φ (listCell L 0) (listCell L l))
    (fun a π hπ => by rw [funCell_order a π hπ 0 (by omega), funCell_order a π hπ l (by omega)]) _ (toInt_injective hx) (places (5 + l) s h)]
  refine mean_congr fun σ => ?_
  have e := drawCell_window x σ h 0 (by omega)
  rw [Nat.add_zero] at e
  rw [e, drawCell_window x σ h l (by omega)]

theorem sum_range_list (φ : Nat → ℝ) : ∀ n, ((List.range n).map φ).sum = ∑ i ∈ Finset.range n, φ i
  | 0 => rfl
  | n + 1 => by rw [List.range_succ, List.map_append, List.sum_append, sum_range_list φ n, Finset.sum_range_succ]; simp

theorem sum_arrangements_cell (φ : Nat → ℝ) : ((arrangements 5).map fun L => φ (listCell L 0)).sum = ∑ i ∈ Finset.range 120, φ i := by
  have h := (listCell_perm.map φ).sum_eq
  rw [List.map_map] at h
  exact h.trans (sum_range_list φ 120)

/-- Samples without common draws are independent. -/
theorem mean_cells_far {N : Nat} (x : Fin N → UInt) (hx : Function.Injective x) (Φ : Nat → Nat → ℝ) {s t : Nat} (h : s + 5 ≤ N) (h' : t + 5 ≤ N)
    (hst : s + 5 ≤ t ∨ t + 5 ≤ s) :
    (mean fun σ : Equiv.Perm (Fin N) => Φ (drawCell (permSrc x σ) s) (drawCell (permSrc x σ) t)) =
      (∑ i ∈ Finset.range 120, ∑ j ∈ Finset.range 120, Φ i j) / 14400 := by
  have h1 := mean_order_two (fun a b => Φ (funCell a 0) (funCell b 0)) (fun L M => Φ (listCell L 0) (listCell M 0))
    (fun a b π ρ hπ hρ => by rw [funCell_order a π hπ 0 (by omega), funCell_order b ρ hρ 0 (by omega)]) _ (toInt_injective hx) (places 5 s h) (places 5 t h')
    (fun i j e => by
      have e2 : s + i.val = t + j.val := congrArg Fin.val e
      omega)
  have h2 : ∀ σ : Equiv.Perm (Fin N), Φ (drawCell (permSrc x σ) s) (drawCell (permSrc x σ) t) =
      Φ (funCell (fun i => (x (σ (places 5 s h i))).toInt) 0) (funCell (fun i => (x (σ (places 5 t h' i))).toInt) 0) := by
    intro σ
    have e := drawCell_window x σ h 0 (by omega)
    have e' := drawCell_window x σ h' 0 (by omega)
    rw [Nat.add_zero] at e e'
    rw [e, e']
  rw [mean_congr h2, h1]
  have h3 : ∀ τ : Equiv.Perm (Fin 5), (mean fun τ' : Equiv.Perm (Fin 5) => Φ (listCell (permList τ) 0) (listCell (permList τ') 0)) =
      (fun L => (∑ j ∈ Finset.range 120, Φ (listCell L 0) j) / 120) (permList τ) := by
    intro τ
    rw [mean_perm fun M => Φ (listCell (permList τ) 0) (listCell M 0), sum_arrangements_cell]
    norm_num [Nat.factorial]
  rw [mean_congr h3, mean_perm fun L => (∑ j ∈ Finset.range 120, Φ (listCell L 0) j) / 120, sum_arrangements_cell fun i => (∑ j ∈ Finset.range 120, Φ i j) / 120, ← Finset.sum_div, div_div]
  norm_num [Nat.factorial]

/-- Every cell is equally likely. -/
theorem mean_cell {N : Nat} (x : Fin N → UInt) (hx : Function.Injective x) (φ : Nat → ℝ) {s : Nat} (h : s + 5 ≤ N) :
    (mean fun σ : Equiv.Perm (Fin N) => φ (drawCell (permSrc x σ) s)) = (∑ i ∈ Finset.range 120, φ i) / 120 := by
  have h1 := mean_cells_near x hx (fun a _ => φ a) (s := s) (l := 0) h
  rw [h1, sum_arrangements_cell φ]
  norm_num [Nat.factorial]

/-! ### Sums over pairs of places -/

theorem sum_lags (h : Nat → ℝ) (c : ℝ) (hc : ∀ l, 5 ≤ l → h l = c) : ∀ k, ∑ t ∈ Finset.range (k + 4), h (k + 4 - t) = h 1 + h 2 + h 3 + h 4 + k * c
  | 0 => by
    simp [Finset.sum_range_succ]
    ring
  | k + 1 => by
    rw [show k + 1 + 4 = (k + 4) + 1 from by omega, Finset.sum_range_succ']
    have : ∀ t ∈ Finset.range (k + 4), h (k + 4 + 1 - (t + 1)) = h (k + 4 - t) := fun t _ => by rw [Nat.add_sub_add_right]
    rw [Finset.sum_congr rfl this, sum_lags h c hc k, Nat.sub_zero, hc (k + 4 + 1) (by omega)]
    push_cast
    ring

/-- A sum over pairs that depends on their distance. -/
theorem sum_pairs (h : Nat → ℝ) (c : ℝ) (hc : ∀ l, 5 ≤ l → h l = c) (f : Nat → Nat → ℝ) (hf : ∀ s l, f s (s + l) = h l)
    (hs : ∀ s t, f s t = f t s) : ∀ k : Nat, ∑ s ∈ Finset.range (k + 4), ∑ t ∈ Finset.range (k + 4), f s t =
      (k + 4) * h 0 + 2 * ((k + 3) * h 1 + (k + 2) * h 2 + (k + 1) * h 3 + k * h 4) + (k ^ 2 - k) * c
  | 0 => by
    have e : ∀ s l, f (s + l) s = h l := fun s l => by rw [hs, hf]
    have e00 := hf 0 0
    have e01 := hf 0 1
    have e02 := hf 0 2
    have e03 := hf 0 3
    have e11 := hf 1 0
    have e12 := hf 1 1
    have e13 := hf 1 2
    have e22 := hf 2 0
    have e23 := hf 2 1
    have e33 := hf 3 0
    norm_num at e00 e01 e02 e03 e11 e12 e13 e22 e23 e33
    simp only [Finset.sum_range_succ, Finset.sum_range_zero, hs 1 0, hs 2 0, hs 2 1, hs 3 0, hs 3 1, hs 3 2, e00, e01, e02, e03, e11, e12, e13, e22, e23, e33]
    push_cast
    ring
  | k + 1 => by
    have ih := sum_pairs h c hc f hf hs k
    have hl : ∑ t ∈ Finset.range (k + 4), f t (k + 4) = h 1 + h 2 + h 3 + h 4 + k * c := by
      rw [← sum_lags h c hc k]
      refine Finset.sum_congr rfl fun t ht => ?_
      have := hf t (k + 4 - t)
      rwa [Nat.add_sub_cancel' (Finset.mem_range.1 ht).le] at this
    have hl2 : ∑ t ∈ Finset.range (k + 4), f (k + 4) t = h 1 + h 2 + h 3 + h 4 + k * c := by
      rw [← hl]
      exact Finset.sum_congr rfl fun t _ => hs _ _
    rw [show k + 1 + 4 = (k + 4) + 1 from by omega, Finset.sum_range_succ, Finset.sum_congr rfl fun s _ => Finset.sum_range_succ _ _,
      Finset.sum_add_distrib, ih, hl, Finset.sum_range_succ, hl2]
    have := hf (k + 4) 0
    rw [Nat.add_zero] at this
    rw [this]
    push_cast
    ring

end Dh
