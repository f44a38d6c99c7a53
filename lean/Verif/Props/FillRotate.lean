import Verif.Model.FillRotate
import Verif.Props.FillTreePower
/-
C158: dab_filltree with the rotation of the draws.
-/
namespace Dh
open Spec

namespace Spec

/-- The rotation of tree `j` of `n`: none for the first, then one more bit after every quarter of the trees. -/
def treeRot (n j : Nat) : Nat := if j = 0 then 0 else (j - 1) / (n / 4) + 1

/-- The results of the trees from tree `j` on, the first of which starts at draw `k`: each is filled with draws rotated by `treeRot`. -/
inductive RotForest (r n : Nat) (src : Src) (size : Nat) : (j k : Nat) → List (Nat × Nat) → Prop
  | nil (j k : Nat) : RotForest r n src size j k []
  | cons {j k m e l} : Fills (fun p => rotWord r (treeRot n j) (src p).toNat) size k (List.replicate size 0) m e →
      RotForest r n src size (j + 1) (k + m) l → RotForest r n src size j k ((m, e) :: l)

end Spec

theorem rotWord_pos (r n x : Nat) (hn : n ≤ r) (h0 : x ≠ 0) : rotWord r n x ≠ 0 := by
  intro h
  rw [rotWord] at h
  have h1 : (x * 2 ^ n) % 2 ^ r = 2 ^ n * (x % 2 ^ (r - n)) := by
    conv_lhs => rw [show r = n + (r - n) by omega, pow_add, mul_comm x, Nat.mul_mod_mul_left]
  rw [h1] at h
  obtain ⟨h3, h2⟩ := Nat.add_eq_zero_iff.1 h
  have h4 : x % 2 ^ (r - n) = 0 := by
    rcases Nat.mul_eq_zero.1 h3 with h | h
    · exact absurd h (by positivity)
    · exact h
  have := Nat.mod_add_div x (2 ^ (r - n))
  rw [h2, h4] at this
  omega

theorem treeRot_le (n j : Nat) (hn : 12 ≤ n) (hj : j < n) : treeRot n j ≤ 5 := by
  rw [treeRot]
  split
  · omega
  · have : (j - 1) / (n / 4) < 5 := by
      rw [Nat.div_lt_iff_lt_mul (by omega)]
      omega
    omega

theorem treeRot_succ (n j : Nat) (hn : 4 ≤ n) : treeRot n (j + 1) = if j % (n / 4) = 0 then treeRot n j + 1 else treeRot n j := by
  have hq : 0 < n / 4 := by omega
  rw [treeRot, if_neg (by omega), Nat.add_sub_cancel, treeRot]
  rcases Nat.eq_zero_or_pos j with rfl | hj
  · simp
  · obtain ⟨i, rfl⟩ : ∃ i, j = i + 1 := ⟨j - 1, by omega⟩
    simp only [if_neg (show ¬ i + 1 = 0 by omega), Nat.add_sub_cancel, Nat.succ_div, Nat.dvd_iff_mod_eq_zero]
    split <;> rfl

theorem ftTreeR_eq (masked : Bool) (r : Nat) (src : Src) (rot size : Nat) (hr0 : 0 < r) (hr : r ≤ 32) (hrot : rot ≤ r) (hm : masked = true ∨ r < 32)
    (hw : ∀ p, (src p).toNat < 2 ^ r) : ∀ (fuel pos i : Nat) (array : List Nat),
    ftTreeR masked r (BitVec.ofNat 32 (2 ^ r - 1)) src rot size fuel pos i array = ftTree (fun p => rotWord r rot (src p).toNat) size fuel pos i array := by
  intro fuel
  induction fuel with
  | zero => intro pos i array; rfl
  | succ fuel ih =>
    intro pos i array
    obtain ⟨y, h1, h2⟩ := rotL_spec masked r rot (src pos) hr0 hr hrot hm (hw pos)
    rw [ftTreeR, ftTree, h1, Res.bind_ok, h2]
    by_cases hc : i + 1 > size * 2
    · rw [if_pos hc, if_pos hc]
    · rw [if_neg hc, if_neg hc]
      congr 1
      funext ra
      obtain ⟨ret, a⟩ := ra
      cases ret with
      | none => exact ih _ _ _
      | some e => rfl

theorem ftLoopR_spec (masked : Bool) (r : Nat) (src : Src) (size n f : Nat) (hr5 : 5 ≤ r) (hr : r ≤ 32) (hm : masked = true ∨ r < 32)
    (hw : ∀ p, (src p).toNat < 2 ^ r) (h0 : ∀ p, (src p).toNat ≠ 0) (hn : 12 ≤ n) (hs : 2 ≤ size) (h31 : size < 2 ^ 31)
    (hf : size / 2 / 2 < 2 ^ f) (hf2 : 2 ^ f ≤ size) (c0 p0 : List Nat) (hc0 : 2 ^ f ≤ c0.length) (hp0 : size / 2 = p0.length) :
    ∀ (todo j pos : Nat) (lc lp counts position : List Nat), j + todo = n → Tallied c0 lc counts → Tallied p0 lp position →
      ∃ l counts' position', ftLoopR masked r (BitVec.ofNat 32 (2 ^ r - 1)) src size n todo j (treeRot n j) pos counts position =
          .ok (some (counts', position')) ∧
        RotForest r n src size j pos l ∧ l.length = todo ∧ (∀ t ∈ l, 1 ≤ t.1 ∧ t.1 ≤ 2 ^ f ∧ t.2 / 2 < size / 2) ∧
        Tallied c0 (lc ++ l.map fun t => t.1 - 1) counts' ∧ Tallied p0 (lp ++ l.map fun t => t.2 / 2) position' := by
  intro todo
  induction todo with
  | zero =>
    intro j pos lc lp counts position _ hc hp
    exact ⟨[], counts, position, rfl, .nil _ _, rfl, by simp, by simpa using hc, by simpa using hp⟩
  | succ todo ih =>
    intro j pos lc lp counts position hj hc hp
    have hrot : treeRot n j ≤ r := (treeRot_le n j hn (by omega)).trans hr5
    have hnodes : ((treeNodes f (size / 2 - 1) (size / 2 / 2)).countP fun j => (List.replicate size 0).getD j 0 == 0) ≤
        2 ^ f - 1 := Nat.le_trans List.countP_le_length (treeNodes_length f _ _)
    have h1 := Nat.one_le_two_pow (n := f)
    obtain ⟨m, e, h2, h3, h4, h5, h6⟩ := ftTree_spec (fun p => rotWord r (treeRot n j) (src p).toNat) (fun p => rotWord_pos r _ _ hrot (h0 p))
      size f hs h31 hf (2 * size + 1) pos 0 (List.replicate size 0) (by simp) (by omega) (by omega)
    rw [ftLoopR, ftTreeR_eq masked r src (treeRot n j) size (by omega) hr hrot hm hw, h2, Res.bind_ok]
    obtain ⟨p', hp1, hp2⟩ := hp.bump (i := e / 2) (by omega)
    obtain ⟨c', hc1, hc2⟩ := hc.bump (i := m - 1) (by omega)
    have hstep : (if n / 4 = 0 then .ub else if j % (n / 4) = 0 then .ok (treeRot n j + 1) else .ok (treeRot n j) : Res Nat) = .ok (treeRot n (j + 1)) := by
      rw [if_neg (by omega), treeRot_succ n j (by omega)]
      split <;> rfl
    simp only [hp1, Res.bind_ok, Nat.zero_add, hc1, hstep]
    obtain ⟨l, c'', p'', h7, h8, h9, h10, h11, h12⟩ := ih (j + 1) (pos + m) _ _ _ _ (by omega) hc2 hp2
    refine ⟨(m, e) :: l, c'', p'', h7, .cons h3 h8, by simp [h9], ?_, by simpa using h11, by simpa using h12⟩
    intro t ht
    rcases List.mem_cons.1 ht with rfl | ht
    · exact ⟨h5, by show m ≤ _; omega, h4⟩
    · exact h10 t ht

/-- **C158.**  `dab_filltree` with the rotation of its draws, for generators of 5 bits or more that never deliver 0, 12 trees or more of up
to 41 cells: the tables count the trees, the first of which is filled with the draws as they are, and the others with draws rotated by 1 to 4
bits (5 for what is left if the number is no multiple of 4): one bit more after each quarter. -/
theorem C158_trees (gammaQ : ℝ → ℝ → ℝ) (masked : Bool) (r : Nat) (src : Src) (ntuple n : Nat) (hr5 : 5 ≤ r) (hr : r ≤ 32) (hm : masked = true ∨ r < 32)
    (hw : ∀ p, (src p).toNat < 2 ^ r) (h0 : ∀ p, (src p).toNat ≠ 0) (hn : 12 ≤ n) (h1 : ntuple ≠ 1) (h2 : ntuple ≤ 41) :
    let size := if ntuple = 0 then 32 else ntuple
    ∃ l counts position, RotForest r n src size 0 0 l ∧ l.length = n ∧ (∀ t ∈ l, 1 ≤ t.1 ∧ t.1 ≤ 16 ∧ t.2 / 2 < size / 2) ∧
      (∀ c, counts.getD c 0 = l.countP fun t => t.1 == c + 1) ∧ (∀ q, position.getD q 0 = l.countP fun t => t.2 / 2 == q) ∧
      counts.length = 20 ∧ position.length = size / 2 ∧
      dabFilltree gammaQ masked r (BitVec.ofNat 32 (2 ^ r - 1)) src ntuple n =
        (ftRange ft1Table n 20 0 (List.replicate 20 0) 0 0 >>= fun range => fillTreePvalues gammaQ size n range (some (counts, position))) := by
  intro size
  have hs : 2 ≤ size ∧ size ≤ 41 := by simp only [size]; split <;> omega
  have key' : ∃ f, f ≤ 4 ∧ size / 2 / 2 < 2 ^ f ∧ 2 ^ f ≤ size := by
    have : size / 2 / 2 = 0 ∨ size / 2 / 2 = 1 ∨ (2 ≤ size / 2 / 2 ∧ size / 2 / 2 < 4) ∨
      (4 ≤ size / 2 / 2 ∧ size / 2 / 2 < 8) ∨ (8 ≤ size / 2 / 2 ∧ size / 2 / 2 < 16) := by omega
    rcases this with h | h | h | h | h
    · exact ⟨0, by omega, by omega, by omega⟩
    · exact ⟨1, by omega, by omega, by omega⟩
    · exact ⟨2, by omega, by omega, by omega⟩
    · exact ⟨3, by omega, by omega, by omega⟩
    · exact ⟨4, by omega, by omega, by omega⟩
  obtain ⟨f, hf4, hf, hf2⟩ := key'
  have h16 : 2 ^ f ≤ 16 := Nat.pow_le_pow_right (n := 2) (by omega) hf4
  obtain ⟨l, c, p, h3, h4, h5, h6, h7, h8⟩ := ftLoopR_spec masked r src size n f hr5 hr hm hw h0 hn hs.1 (by omega) hf hf2 (List.replicate 20 0)
    (List.replicate (size / 2) 0) (by simp; omega) (by simp) n 0 0 [] [] _ _ (by omega) (.nil _) (.nil _)
  refine ⟨l, c, p, h4, h5, fun t ht => ?_, fun k => ?_, fun q => ?_, ?_, ?_, ?_⟩
  · have := h6 t ht; omega
  · rw [h7.get, List.nil_append, List.count_eq_countP, List.countP_map]
    have : (List.replicate 20 0).getD k 0 = 0 := by
      simp only [List.getD, List.getElem?_replicate]; split <;> rfl
    rw [this, Nat.zero_add]
    apply List.countP_congr
    intro t ht
    have := h6 t ht
    simp only [Function.comp, beq_iff_eq]
    omega
  · rw [h8.get, List.nil_append, List.count_eq_countP, List.countP_map]
    have : (List.replicate (size / 2) 0).getD q 0 = 0 := by
      simp only [List.getD, List.getElem?_replicate]; split <;> rfl
    rw [this, Nat.zero_add]
    rfl
  · rw [h7.len]; simp
  · rw [h8.len]; simp
  · rw [dabFilltree]
    have ht0 : treeRot n 0 = 0 := rfl
    rw [ht0] at h3
    show (ftRange ft1Table n 20 0 (List.replicate 20 0) 0 0 >>= fun range =>
      ftLoopR masked r (BitVec.ofNat 32 (2 ^ r - 1)) src size n n 0 0 0 (List.replicate 20 0) (List.replicate (size / 2) 0) >>= fun t =>
      (if t.isSome ∧ 20 < size / 2 then .ub else .ok t : Res (Option (List Nat × List Nat))) >>= fun t => fillTreePvalues gammaQ size n range t) = _
    congr 1
    funext range
    rw [h3, Res.bind_ok, if_neg (by omega), Res.bind_ok]

theorem rotForest_ascends {r n : Nat} {src : Src} (V : Finset UInt) (hV : V.card ≤ 4) (hsV : ∀ p, src p ∈ V) {j k : Nat} {l : List (Nat × Nat)}
    (h : RotForest r n src 32 j k l) : ∀ t ∈ l, t.2 / 2 ≠ 15 := by
  induction h with
  | nil => intro t ht; cases ht
  | @cons j k m e l hf _ ih =>
    intro t ht
    rcases List.mem_cons.1 ht with rfl | ht
    · refine fills_ascends (V := V.image fun v => rotWord r (treeRot n j) v.toNat) (Finset.card_image_le.trans hV)
        (fun p => Finset.mem_image_of_mem _ (hsV p)) hf (ascends_empty _)
    · exact ih t ht

/-- **C158, four values.**  Whatever the rotations do, a default run finds out every generator that delivers at most four values, none of them 0,
in whatever order. -/
theorem C158_four (masked : Bool) (r : Nat) (src : Src) (hr5 : 5 ≤ r) (hr : r ≤ 32) (hm : masked = true ∨ r < 32)
    (hw : ∀ p, (src p).toNat < 2 ^ r) (h0 : ∀ p, (src p).toNat ≠ 0) (V : Finset UInt) (hV : V.card ≤ 4) (hsV : ∀ p, src p ∈ V) :
    ∃ p1 p2, dabFilltree gammaTail masked r (BitVec.ofNat 32 (2 ^ r - 1)) src 0 15000000 = .ok (some (p1, p2)) ∧ 0 ≤ p2 ∧ p2 ≤ Real.exp (-234000) := by
  obtain ⟨l, counts, position, f1, f2, -, -, k5, k2, k3, k1⟩ := C158_trees gammaTail masked r src 0 15000000 hr5 hr hm hw h0 (by omega) (by omega) (by omega)
  rw [if_pos rfl] at f1 k1 k3
  have hmiss := rotForest_ascends V hV hsV f1
  obtain ⟨ex, h1, h2, -⟩ := ftRange_spec ft1Table 15000000 20 rfl 20 0 (List.replicate 20 0) 0 0 rfl (by simp) (fun j hj => absurd hj (Nat.not_lt_zero j))
  obtain ⟨ex', h4⟩ := ft1_range 15000000
  have hsc : ftScan (ft1Lt 15000000) (ft1Gt 15000000) 20 0 0 0 = (3, 15) := by decide +kernel
  rw [hsc] at h4
  rw [h4] at h1
  simp only [Res.ok.injEq, Prod.mk.injEq] at h1
  obtain ⟨rfl, -⟩ := h1
  have hw' : wadd 3 1 = 4 := by decide
  have hws : wsub 15 4 = 11 := by decide
  rw [hw'] at h4
  have h15 : l.countP (fun t => t.2 / 2 == 15) = 0 := by
    rw [List.countP_eq_zero]
    intro t ht e
    exact hmiss t ht (by simpa using e)
  have hsum2 : (0 + ∑ t ∈ Finset.range 16, ((position.map (Nat.cast : Nat → ℝ)).getD (0 + t) 0 -
      (List.replicate 16 ((937500 : ℕ) : ℝ)).getD (0 + t) 0) ^ 2 / (List.replicate 16 ((937500 : ℕ) : ℝ)).getD (0 + t) 0) =
      ∑ q ∈ Finset.range 16, ((l.countP (fun t => t.2 / 2 == q) : ℝ) - 937500) ^ 2 / 937500 := by
    rw [zero_add]
    refine Finset.sum_congr rfl fun t ht => ?_
    have ht' := Finset.mem_range.1 ht
    have e1 := getD_map_drop (Nat.cast : Nat → ℝ) 0 (by simp) position 0 t
    rw [List.drop_zero, Nat.zero_add, k5] at e1
    have e2 : (List.replicate 16 ((937500 : ℕ) : ℝ)).getD t 0 = (937500 : ℕ) := by
      rw [List.getD_eq_getElem _ _ (by simpa using ht'), List.getElem_replicate]
    rw [Nat.zero_add, e1, e2]
    norm_num
  have hc : (937500 : ℝ) ≤ ∑ q ∈ Finset.range 16, ((l.countP (fun t => t.2 / 2 == q) : ℝ) - 937500) ^ 2 / 937500 := by
    refine le_trans ?_ (Finset.single_le_sum (f := fun q => ((l.countP (fun t => t.2 / 2 == q) : ℝ) - 937500) ^ 2 / 937500)
      (fun _ _ => div_nonneg (sq_nonneg _) (by norm_num)) (Finset.mem_range.2 (show 15 < 16 by norm_num)))
    simp only [h15]
    norm_num
  obtain ⟨g1, g2⟩ := gammaTail_exp (a := 15 / 2) (c := 937500) (by norm_num) (by norm_num) _ hc
  rw [h4, Res.bind_ok, fillTreePvalues] at k1
  simp only [] at k1
  rw [chisqPearson, hws, pearsonLoop_some _ _ _ _ _ (by simp [k2]) (by simp [h2]), Res.bind_ok, Res.bind_ok, chisqPearson,
    show 15000000 / (32 / 2) = 937500 by norm_num, show 32 / 2 = 16 by norm_num,
    pearsonLoop_some _ _ _ _ _ (by simp [k3]) (by simp), Res.bind_ok, Res.bind_ok, hsum2,
    show (((16 : ℕ) : ℝ) - 1) / 2 = 15 / 2 by norm_num] at k1
  exact ⟨_, _, k1, g1, g2.trans (Real.exp_le_exp.2 (by norm_num))⟩

/-- **C158, failure.**  For generators of 32 bits the first draw is shifted by 32 places, which has no value in the language (the theorems above
have the machine that takes the count modulo 32). -/
theorem C158_shift (gammaQ : ℝ → ℝ → ℝ) (mask : UInt) (src : Src) (ntuple n : Nat) (hn : 0 < n) : dabFilltree gammaQ false 32 mask src ntuple n = .ub := by
  obtain ⟨ex, h1⟩ := ft1_range n
  obtain ⟨m, rfl⟩ : ∃ m, n = m + 1 := ⟨n - 1, by omega⟩
  have hrot : rotL false 32 mask (src 0) 0 = .ub := by
    rw [rotL, shlM, shrM]
    simp [shl, shr]
  rw [dabFilltree, h1, Res.bind_ok]
  simp only [ftLoopR, ftTreeR, hrot, Res.bind_ub]

/-- Trees 0 to 12 of 13: the rotations. -/
example : (List.range 13).map (treeRot 13) = [0, 1, 1, 1, 2, 2, 2, 3, 3, 3, 4, 4, 4] := by decide

/-- A generator of 31 bits that delivers the numbers 1 to 4 in any order. -/
example (x : Nat → Nat) : ∃ p1 p2, dabFilltree gammaTail false 31 (BitVec.ofNat 32 (2 ^ 31 - 1)) (fun p => BitVec.ofNat 32 (x p % 4 + 1)) 0 15000000 =
    .ok (some (p1, p2)) ∧ 0 ≤ p2 ∧ p2 ≤ Real.exp (-234000) := by
  have hv : ∀ p, (BitVec.ofNat 32 (x p % 4 + 1)).toNat = x p % 4 + 1 := fun p => by
    rw [BitVec.toNat_ofNat]
    exact Nat.mod_eq_of_lt (by omega)
  refine C158_four false 31 _ (by omega) (by omega) (.inr (by omega)) (fun p => by rw [hv]; omega) (fun p => by rw [hv]; omega) {1, 2, 3, 4} (by decide) fun p => ?_
  have : x p % 4 < 4 := Nat.mod_lt _ (by norm_num)
  generalize x p % 4 = y at this ⊢
  interval_cases y <;> decide

end Dh
