import Verif.Proof.LinPow
/-
Fixed words of powers of a linear map: certificates that the words fixed by one power are fixed by another.
-/
namespace Dh

/-- `m` applications to each word of a list. -/
def powColsL : (fuel : Nat) → List Nat → (m : Nat) → List Nat → List Nat
  | 0, _, _, vs => vs
  | fuel + 1, c, m, vs => powColsL fuel (sqCols c) (m / 2) (if m % 2 = 1 then vs.map (applyCols c) else vs)

theorem powColsL_eq : ∀ (fuel : Nat) (c : List Nat) (m : Nat) (vs : List Nat), powColsL fuel c m vs = vs.map (powCols fuel c m)
  | 0, c, m, vs => by simp [powColsL, powCols]
  | fuel + 1, c, m, vs => by
    rw [powColsL, powColsL_eq fuel]
    split
    · rename_i h
      rw [List.map_map]
      apply List.map_congr_left
      intro v _
      rw [Function.comp_apply, powCols, if_pos h]
    · rename_i h
      apply List.map_congr_left
      intro v _
      rw [powCols, if_neg h]

theorem colsOf_map (G : Nat → Nat) : ∀ n k, colsOf G k n = (colsOf id k n).map G
  | 0, _ => rfl
  | n + 1, k => by
    rw [colsOf, colsOf, List.map_cons, colsOf_map G n (k + 1)]
    rfl

/-- Linear maps that agree on the powers of two agree on all words. -/
theorem linear_ext (G H : Nat → Nat) (hG : ∀ u v, G (u ^^^ v) = G u ^^^ G v) (hH : ∀ u v, H (u ^^^ v) = H u ^^^ H v)
    (h : (colsOf id 0 32).map G = (colsOf id 0 32).map H) (v : Nat) (hv : v < 2 ^ 32) : G v = H v := by
  have e1 := applyCols_colsOf G hG 32 0 v hv
  have e2 := applyCols_colsOf H hH 32 0 v hv
  rw [colsOf_map] at e1 e2
  rw [h] at e1
  simpa using e1.symm.trans e2

theorem zipWith_xor (F : Nat → Nat) : ∀ l : List Nat, List.zipWith Nat.xor (l.map F) l = l.map fun e => F e ^^^ e
  | [] => rfl
  | a :: l => by
    rw [List.map_cons, List.zipWith_cons_cons, List.map_cons, zipWith_xor F l]
    rfl

/-- The map `cs` takes `f^m v ^^^ v` to `f^k v ^^^ v`, on the powers of two. -/
def relCheck (c cs : List Nat) (m k : Nat) : Bool :=
  (List.zipWith Nat.xor (powColsL 33 c m (colsOf id 0 32)) (colsOf id 0 32)).map (applyCols cs) ==
    List.zipWith Nat.xor (powColsL 33 c k (colsOf id 0 32)) (colsOf id 0 32)

theorem powCols_xor : ∀ (fuel : Nat) (c : List Nat) (m u v : Nat), powCols fuel c m (u ^^^ v) = powCols fuel c m u ^^^ powCols fuel c m v
  | 0, c, m, u, v => rfl
  | fuel + 1, c, m, u, v => by
    rw [powCols, powCols, powCols, ← powCols_xor fuel]
    congr 1
    split
    · exact applyCols_xor c u v
    · rfl

theorem rel_of_check (f : UInt → UInt) (hf : ∀ u v, f (u ^^^ v) = f u ^^^ f v) (cs : List Nat) (m k : Nat) (hm : m < 2 ^ 33) (hk : k < 2 ^ 33)
    (h : relCheck (wordCols f) cs m k = true) (w : UInt) (hw : f^[m] w = w) : f^[k] w = w := by
  rw [relCheck, powColsL_eq, powColsL_eq, zipWith_xor, zipWith_xor, List.map_map, beq_iff_eq] at h
  have lin : ∀ j u v, powCols 33 (wordCols f) j (u ^^^ v) ^^^ (u ^^^ v) =
      (powCols 33 (wordCols f) j u ^^^ u) ^^^ (powCols 33 (wordCols f) j v ^^^ v) := by
    intro j u v
    rw [powCols_xor]
    ac_rfl
  have := linear_ext _ _ (fun u v => by
    rw [Function.comp_apply, Function.comp_apply, Function.comp_apply, lin, applyCols_xor]) (lin k) h w.toNat w.isLt
  rw [Function.comp_apply, powCols_word f hf w 33 m hm, powCols_word f hf w 33 k hk, hw, Nat.xor_self, applyCols_zero] at this
  exact BitVec.eq_of_toNat_eq (Nat.xor_eq_zero_iff.1 this.symm)

/-- The map `cs` takes `f^m v ^^^ v` back to `v`: only 0 is fixed. -/
theorem zero_of_check (f : UInt → UInt) (hf : ∀ u v, f (u ^^^ v) = f u ^^^ f v) (cs : List Nat) (m : Nat) (hm : m < 2 ^ 33)
    (h : (List.zipWith Nat.xor (powColsL 33 (wordCols f) m (colsOf id 0 32)) (colsOf id 0 32)).map (applyCols cs) = colsOf id 0 32)
    (w : UInt) (hw : f^[m] w = w) : w = 0 := by
  rw [powColsL_eq, zipWith_xor, List.map_map] at h
  have := linear_ext (applyCols cs ∘ fun e => powCols 33 (wordCols f) m e ^^^ e) id (fun u v => by
    rw [Function.comp_apply, Function.comp_apply, Function.comp_apply, ← applyCols_xor]
    congr 1
    rw [powCols_xor]
    ac_rfl) (fun _ _ => rfl) (by rw [h, List.map_id]) w.toNat w.isLt
  rw [Function.comp_apply, powCols_word f hf w 33 m hm, hw, Nat.xor_self, applyCols_zero] at this
  exact BitVec.eq_of_toNat_eq this.symm

/-- A power that fixes the powers of two fixes all words. -/
theorem fixed_of_check (f : UInt → UInt) (hf : ∀ u v, f (u ^^^ v) = f u ^^^ f v) (m : Nat) (hm : m < 2 ^ 33)
    (h : powColsL 33 (wordCols f) m (colsOf id 0 32) = colsOf id 0 32) (w : UInt) : f^[m] w = w := by
  rw [powColsL_eq] at h
  have := linear_ext (powCols 33 (wordCols f) m) id (powCols_xor _ _ _) (fun _ _ => rfl) (by rw [h, List.map_id]) w.toNat w.isLt
  rw [powCols_word f hf w 33 m hm] at this
  exact BitVec.eq_of_toNat_eq this

end Dh
