import Verif.Model.FillTree
import Verif.Proof.Tally
import Verif.Spec.Bits
/-
C43: the fill-tree tests.
-/
set_option linter.unusedSimpArgs false
namespace Dh
namespace Spec

/-- A descent in the implicit tree: from node `i` with step `d` through the nodes `p` to node `e` with step `d'`; `right j`
tells whether the descent leaves node `j` to the right. -/
inductive Descent (right : Nat → Prop) : (i d : Nat) → (p : List Nat) → (e d' : Nat) → Prop
  | here (i d : Nat) : Descent right i d [] i d
  | right {i d p e d'} : 0 < d → right i → Descent right (i + d) (d / 2) p e d' → Descent right i d (i :: p) e d'
  | left {i d p e d'} : 0 < d → d ≤ i → ¬ right i → Descent right (i - d) (d / 2) p e d' → Descent right i d (i :: p) e d'

/-- Inserting `x` into the tree `a` (0 marks an empty node), from the root `i` with step `d`: the first empty node of the
descent takes `x` (`none`), or the descent meets no empty node and its end is reported. -/
def Inserts (a : List Nat) (x i d : Nat) (r : Option Nat) (a' : List Nat) : Prop :=
  ∃ p e d', Descent (fun j => a.getD j 0 < x) i d p e d' ∧ (∀ j ∈ p, j < a.length ∧ a.getD j 0 ≠ 0) ∧ e < a.length ∧
    ((r = none ∧ 0 < d' ∧ a.getD e 0 = 0 ∧ a' = a.set e x) ∨ (r = some e ∧ d' = 0 ∧ a' = a))

/-- Inserting the keys from place `k` on into the tree `a` until a descent meets no empty node: `n` keys are used, and the
last descent ends at `e`. -/
inductive Fills (key : Nat → Nat) (size : Nat) : (k : Nat) → (a : List Nat) → (n e : Nat) → Prop
  | full {k a e} : Inserts a (key k) (size / 2 - 1) (size / 2 / 2) (some e) a → Fills key size k a 1 e
  | more {k a a' n e} : Inserts a (key k) (size / 2 - 1) (size / 2 / 2) none a' → Fills key size (k + 1) a' n e →
      Fills key size k a (n + 1) e

/-- The results of `todo` successive trees from place `k` on: keys used and last position of each. -/
inductive Forest (key : Nat → Nat) (size : Nat) : (k : Nat) → List (Nat × Nat) → Prop
  | nil (k : Nat) : Forest key size k []
  | cons {k n e l} : Fills key size k (List.replicate size 0) n e → Forest key size (k + n) l →
      Forest key size k ((n, e) :: l)

end Spec

theorem wadd_eq {i d : Nat} (h : i + d < 2 ^ 32) : wadd i d = i + d := Nat.mod_eq_of_lt h

theorem wsub_eq {i d : Nat} (hd : d ≤ i) (h : i < 2 ^ 32) : wsub i d = i - d := by
  unfold wsub; omega

theorem getD_eq_get {a : List Nat} {i : Nat} (h : i < a.length) : a.getD i 0 = a[i] := by
  simp [List.getD, h]

/-! ### dab_filltree -/

theorem ftInsert_spec (x : Nat) (array : List Nat) (B : Nat) (hB : B ≤ array.length) (hl : array.length < 2 ^ 31) :
    ∀ (fuel i d : Nat), d < 2 ^ fuel → 2 * d ≤ i + 1 → i + (2 * d - 1) < B →
      ∃ r a', ftInsert x fuel array i d = .ok (r, a') ∧ Spec.Inserts array x i d r a' ∧ (∀ e, r = some e → e < B) := by
  intro fuel
  induction fuel with
  | zero =>
    intro i d h0 h1 h2
    have : d = 0 := by simpa using h0
    subst this
    refine ⟨some i, array, rfl, ⟨[], i, 0, .here i 0, by simp, by omega, .inr ⟨rfl, rfl, rfl⟩⟩, ?_⟩
    intro e he; cases he; omega
  | succ fuel ih =>
    intro i d h0 h1 h2
    rw [ftInsert]
    by_cases hd : d = 0
    · subst hd
      refine ⟨some i, array, by simp, ⟨[], i, 0, .here i 0, by simp, by omega, .inr ⟨rfl, rfl, rfl⟩⟩, ?_⟩
      intro e he; cases he; omega
    · have hi : i < array.length := by omega
      rw [if_neg hd, rd_ok hi, Res.bind_ok]
      by_cases ha : array[i] = 0
      · refine ⟨none, array.set i x, by simp [ha, wr, hi], ⟨[], i, d, .here i d, by simp, hi, .inl ⟨rfl, by omega, ?_, rfl⟩⟩,
          by simp⟩
        rw [getD_eq_get hi, ha]
      · rw [if_neg ha]
        have hp : d / 2 < 2 ^ fuel := by rw [Nat.pow_succ] at h0; omega
        by_cases hx : array[i] < x
        · rw [if_pos hx, wadd_eq (by omega)]
          obtain ⟨r, a', he, ⟨p, e, d', hD, hm, h3, h4⟩, h5⟩ := ih (i + d) (d / 2) hp (by omega) (by omega)
          refine ⟨r, a', he, ⟨i :: p, e, d', .right (by omega) (by rw [getD_eq_get hi]; exact hx) hD, ?_, h3, h4⟩, h5⟩
          intro j hj
          rcases List.mem_cons.1 hj with rfl | hj
          · exact ⟨hi, by rw [getD_eq_get hi]; exact ha⟩
          · exact hm j hj
        · rw [if_neg hx, wsub_eq (by omega) (by omega)]
          obtain ⟨r, a', he, ⟨p, e, d', hD, hm, h3, h4⟩, h5⟩ := ih (i - d) (d / 2) hp (by omega) (by omega)
          refine ⟨r, a', he, ⟨i :: p, e, d', .left (by omega) (by omega) (by rw [getD_eq_get hi]; exact hx) hD, ?_, h3, h4⟩, h5⟩
          intro j hj
          rcases List.mem_cons.1 hj with rfl | hj
          · exact ⟨hi, by rw [getD_eq_get hi]; exact ha⟩
          · exact hm j hj

/-- **C43**, `insert`: whatever is in the tree and whatever is inserted, only the tree is accessed, and the insertion either
fills exactly the first empty node of its path or reports the end of a path without empty node; that end belongs to one of the
`size/2` positions. -/
theorem C43_insert (x size : Nat) (array : List Nat) (hs : 2 ≤ size) (hl : array.length = size) (h31 : size < 2 ^ 31) :
    ∃ r a', ftInsertTop x array size = .ok (r, a') ∧ Spec.Inserts array x (size / 2 - 1) (size / 2 / 2) r a' ∧
      ∀ e, r = some e → e / 2 < size / 2 := by
  have hq : (size / 2 - 1 + 1) / 2 = size / 2 / 2 := by omega
  rw [ftInsertTop, hq]
  obtain ⟨r, a', h1, h2, h3⟩ := ftInsert_spec x array (2 * (size / 2) - 1) (by omega) (by omega) 32 (size / 2 - 1)
    (size / 2 / 2) (by omega) (by omega) (by omega)
  exact ⟨r, a', h1, h2, fun e he => by have := h3 e he; omega⟩

/-- The nodes of the tree below node `i` with step `d`. -/
def treeNodes : (fuel i d : Nat) → List Nat
  | 0, _, _ => []
  | fuel + 1, i, d => if d = 0 then [] else i :: (treeNodes fuel (i + d) (d / 2) ++ treeNodes fuel (i - d) (d / 2))

theorem treeNodes_length : ∀ (fuel i d : Nat), (treeNodes fuel i d).length ≤ 2 ^ fuel - 1 := by
  intro fuel
  induction fuel with
  | zero => intro i d; simp [treeNodes]
  | succ fuel ih =>
    intro i d
    rw [treeNodes]
    split
    · simp
    · have h1 := ih (i + d) (d / 2)
      have h2 := ih (i - d) (d / 2)
      have := Nat.one_le_two_pow (n := fuel)
      rw [List.length_cons, List.length_append, Nat.pow_succ]
      omega

theorem descent_mem {right : Nat → Prop} {i d : Nat} {p : List Nat} {e d' : Nat} (h : Spec.Descent right i d p e d') :
    ∀ fuel, d < 2 ^ fuel → 0 < d' → e ∈ treeNodes fuel i d := by
  induction h with
  | here i d =>
    intro fuel hf hd
    cases fuel with
    | zero => simp at hf; omega
    | succ fuel => rw [treeNodes, if_neg (by omega)]; simp
  | right h0 _ _ ih =>
    intro fuel hf hd
    cases fuel with
    | zero => simp at hf; omega
    | succ fuel =>
      rw [treeNodes, if_neg (by omega)]
      have := ih fuel (by rw [Nat.pow_succ] at hf; omega) hd
      simp [this]
  | left h0 _ _ _ ih =>
    intro fuel hf hd
    cases fuel with
    | zero => simp at hf; omega
    | succ fuel =>
      rw [treeNodes, if_neg (by omega)]
      have := ih fuel (by rw [Nat.pow_succ] at hf; omega) hd
      simp [this]

theorem count_empty (a : List Nat) (l : List Nat) (e x : Nat) (hx : x ≠ 0) (he : e < a.length) (h0 : a.getD e 0 = 0)
    (hm : e ∈ l) : (l.countP fun j => (a.set e x).getD j 0 == 0) + 1 ≤ l.countP fun j => a.getD j 0 == 0 := by
  induction l with
  | nil => simp at hm
  | cons j l ih =>
    rw [List.countP_cons, List.countP_cons, getD_set a e x 0 he]
    have hmono : (l.countP fun j => (a.set e x).getD j 0 == 0) ≤ l.countP fun j => a.getD j 0 == 0 := by
      apply List.countP_mono_left
      intro k _ hk
      rw [getD_set a e x 0 he] at hk
      by_cases hke : k = e
      · rw [if_pos hke] at hk; simp at hk; omega
      · rw [if_neg hke] at hk; exact hk
    by_cases hj : j = e
    · subst hj
      rw [if_pos rfl, h0]
      simp only [beq_iff_eq, hx, if_false, if_pos, Nat.add_zero]
      omega
    · rw [if_neg hj]
      have := ih (by simpa [Ne.symm hj] using hm)
      omega

theorem ftTree_spec (key : Nat → Nat) (hk : ∀ n, key n ≠ 0) (size f : Nat) (hs : 2 ≤ size) (h31 : size < 2 ^ 31)
    (hf : size / 2 / 2 < 2 ^ f) :
    ∀ (fuel pos i : Nat) (array : List Nat), array.length = size →
      ((treeNodes f (size / 2 - 1) (size / 2 / 2)).countP fun j => array.getD j 0 == 0) < fuel →
      ((treeNodes f (size / 2 - 1) (size / 2 / 2)).countP fun j => array.getD j 0 == 0) + i + 1 ≤ 2 * size →
      ∃ n e, ftTree key size fuel pos i array = .ok (some (e, i + n, pos + n)) ∧ Spec.Fills key size pos array n e ∧
        e / 2 < size / 2 ∧
        1 ≤ n ∧ n ≤ ((treeNodes f (size / 2 - 1) (size / 2 / 2)).countP fun j => array.getD j 0 == 0) + 1 := by
  intro fuel
  induction fuel with
  | zero => intro pos i array _ h; omega
  | succ fuel ih =>
    intro pos i array hl h1 h2
    obtain ⟨r, a', he, hI, hr⟩ := C43_insert (key pos) size array hs hl h31
    rw [ftTree, if_neg (by omega), he, Res.bind_ok]
    cases r with
    | some e =>
      refine ⟨1, e, rfl, .full ?_, hr e rfl, by omega, by omega⟩
      obtain ⟨p, e', d', hD, hm, hlt, h | h⟩ := hI
      · cases h.1
      · exact ⟨p, e', d', hD, hm, hlt, .inr ⟨h.1, h.2.1, rfl⟩⟩
    | none =>
      have hI' := hI
      obtain ⟨p, e', d', hD, hm, hlt, h | h⟩ := hI'
      · obtain ⟨_, hd', h0, rfl⟩ := h
        have hc := count_empty array _ e' (key pos) (hk pos) hlt h0 (descent_mem hD f hf hd')
        obtain ⟨n, e, h3, h4, h5, h6, h7⟩ := ih (pos + 1) (i + 1) (array.set e' (key pos)) (by simpa using hl)
          (by omega) (by omega)
        refine ⟨n + 1, e, ?_, .more hI h4, h5, by omega, by omega⟩
        show ftTree key size fuel (pos + 1) (i + 1) _ = _
        rw [h3, show i + 1 + n = i + (n + 1) by omega, show pos + 1 + n = pos + (n + 1) by omega]
      · cases h.1

theorem ftLoop_spec (key : Nat → Nat) (hk : ∀ n, key n ≠ 0) (size f : Nat) (hs : 2 ≤ size) (h31 : size < 2 ^ 31)
    (hf : size / 2 / 2 < 2 ^ f) (hf2 : 2 ^ f ≤ size) (c0 p0 : List Nat) (hc0 : 2 ^ f ≤ c0.length) (hp0 : size / 2 = p0.length) :
    ∀ (todo pos : Nat) (lc lp counts position : List Nat), Tallied c0 lc counts → Tallied p0 lp position →
      ∃ l counts' position', ftLoop key size todo pos counts position = .ok (some (counts', position')) ∧
        Spec.Forest key size pos l ∧ l.length = todo ∧ (∀ t ∈ l, 1 ≤ t.1 ∧ t.1 ≤ 2 ^ f ∧ t.2 / 2 < size / 2) ∧
        Tallied c0 (lc ++ l.map fun t => t.1 - 1) counts' ∧ Tallied p0 (lp ++ l.map fun t => t.2 / 2) position' := by
  intro todo
  induction todo with
  | zero =>
    intro pos lc lp counts position hc hp
    exact ⟨[], counts, position, rfl, .nil _, rfl, by simp, by simpa using hc, by simpa using hp⟩
  | succ todo ih =>
    intro pos lc lp counts position hc hp
    have hn : ((treeNodes f (size / 2 - 1) (size / 2 / 2)).countP fun j => (List.replicate size 0).getD j 0 == 0) ≤
        2 ^ f - 1 := Nat.le_trans List.countP_le_length (treeNodes_length f _ _)
    have h1 := Nat.one_le_two_pow (n := f)
    obtain ⟨n, e, h2, h3, h4, h5, h6⟩ := ftTree_spec key hk size f hs h31 hf (2 * size + 1) pos 0 (List.replicate size 0)
      (by simp) (by omega) (by omega)
    rw [ftLoop, h2, Res.bind_ok]
    obtain ⟨p', hp1, hp2⟩ := hp.bump (i := e / 2) (by omega)
    obtain ⟨c', hc1, hc2⟩ := hc.bump (i := n - 1) (by omega)
    simp only [hp1, Res.bind_ok, Nat.zero_add, hc1]
    obtain ⟨l, c'', p'', h7, h8, h9, h10, h11, h12⟩ := ih (pos + n) _ _ _ _ hc2 hp2
    refine ⟨(n, e) :: l, c'', p'', h7, .cons h3 h8, by simp [h9], ?_, by simpa using h11, by simpa using h12⟩
    intro t ht
    rcases List.mem_cons.1 ht with rfl | ht
    · exact ⟨h5, by show n ≤ _; omega, h4⟩
    · exact h10 t ht

/-- **C43**, `dab_filltree`: for a generator that never delivers 0 and trees of up to 41 nodes (32 by default), only the tree
and the tables are accessed; every tree is filled until a path is full, which takes at most 16 numbers, and is counted in both
tables: under the numbers it used and under the position of the last path. -/
theorem C43_filltree (key : Nat → Nat) (hk : ∀ n, key n ≠ 0) (ntuple tsamples : Nat) (h1 : ntuple ≠ 1) (h2 : ntuple ≤ 41) :
    let size := if ntuple = 0 then 32 else ntuple
    ∃ l counts position, fillTree key ntuple tsamples = .ok (some (counts, position)) ∧ Spec.Forest key size 0 l ∧
      l.length = tsamples ∧ (∀ t ∈ l, 1 ≤ t.1 ∧ t.1 ≤ 16 ∧ t.2 / 2 < size / 2) ∧
      (∀ n, 1 ≤ n → counts.getD (n - 1) 0 = l.countP fun t => t.1 == n) ∧
      (∀ q, position.getD q 0 = l.countP fun t => t.2 / 2 == q) ∧
      counts.length = 20 ∧ counts.sum = tsamples ∧ position.length = size / 2 ∧ position.sum = tsamples := by
  intro size
  have hs : 2 ≤ size ∧ size ≤ 41 := by simp only [size]; split <;> omega
  have key' : ∃ f, f ≤ 4 ∧ size / 2 / 2 < 2 ^ f ∧ 2 ^ f ≤ size := by
    have : size / 2 / 2 = 0 ∨ size / 2 / 2 = 1 ∨ (2 ≤ size / 2 / 2 ∧ size / 2 / 2 < 4) ∨
      (4 ≤ size / 2 / 2 ∧ size / 2 / 2 < 8) ∨ (8 ≤ size / 2 / 2 ∧ size / 2 / 2 < 16) := by omega
    rcases this with h | h | h | h | h
    · exact ⟨0, by omega, by omega, by omega⟩
    · exact ⟨1, by omega, by omega, by omega⟩
    · exact ⟨2, by omega, by omega, by omega⟩
    · exact ⟨3, by omega, by omega, by omega⟩
    · exact ⟨4, by omega, by omega, by omega⟩
  obtain ⟨f, hf4, hf, hf2⟩ := key'
  have h16 : 2 ^ f ≤ 16 := Nat.pow_le_pow_right (n := 2) (by omega) hf4
  obtain ⟨l, c, p, h3, h4, h5, h6, h7, h8⟩ := ftLoop_spec key hk size f hs.1 (by omega) hf hf2 (List.replicate 20 0)
    (List.replicate (size / 2) 0) (by simp; omega) (by simp) tsamples 0 [] [] _ _ (.nil _) (.nil _)
  refine ⟨l, c, p, ?_, h4, h5, fun t ht => ?_, fun n hn => ?_, fun q => ?_, ?_, ?_, ?_, ?_⟩
  · show (ftLoop key size tsamples 0 (List.replicate 20 0) (List.replicate (size / 2) 0) >>= _) = _
    rw [h3, Res.bind_ok]
    show (if size / 2 ≤ 20 then _ else _) = _
    rw [if_pos (by omega)]
  · have := h6 t ht; omega
  · rw [h7.get, List.nil_append, List.count_eq_countP, List.countP_map]
    have : (List.replicate 20 0).getD (n - 1) 0 = 0 := by
      simp only [List.getD, List.getElem?_replicate]; split <;> rfl
    rw [this, Nat.zero_add]
    apply List.countP_congr
    intro t ht
    have := h6 t ht
    simp only [Function.comp, beq_iff_eq]
    omega
  · rw [h8.get, List.nil_append, List.count_eq_countP, List.countP_map]
    have : (List.replicate (size / 2) 0).getD q 0 = 0 := by
      simp only [List.getD, List.getElem?_replicate]; split <;> rfl
    rw [this, Nat.zero_add]
    rfl
  · rw [h7.len]; simp
  · rw [h7.sum]; simp [List.sum_replicate_nat, h5]
  · rw [h8.len]; simp
  · rw [h8.sum]; simp [List.sum_replicate_nat, h5]

/-- A generator whose first 20 numbers are 0. -/
def zerosFirst (n : Nat) : Nat := if n < 20 then 0 else 5

/-- **C43** fails for `dab_filltree` and a generator that delivers 0: the node which receives 0 still counts as empty, so that a
tree can use up to 64 numbers and `counts`, with its 20 entries, is accessed out of bounds (dab_filltree.c:89). -/
theorem C43_filltree_zero_fails : fillTree zerosFirst 0 1 = .ub := by decide +kernel

/-- **C43** fails for `dab_filltree` and trees of 42 or more nodes: unless it gives up, it never completes regularly, since
`expected` has 20 entries and `size/2` are written (dab_filltree.c:95). -/
theorem C43_filltree_large_fails (key : Nat → Nat) (ntuple tsamples : Nat) (h : 42 ≤ ntuple) :
    ∀ r, fillTree key ntuple tsamples ≠ .ok (some r) := by
  intro r h'
  rw [fillTree, if_neg (by omega)] at h'
  simp only [Res.bind_eq_ok] at h'
  obtain ⟨x, _, hx⟩ := h'
  cases x with
  | none => cases hx
  | some x =>
    simp only at hx
    rw [if_neg (by omega)] at hx
    cases hx

/-- Non-vacuity: the keys 5, 5, 5, 5, 5, ... fill the leftmost path of the default tree, five numbers per tree. -/
example : fillTree (fun _ => 5) 0 2 = .ok (some ([0, 0, 0, 0, 2, 0, 0, 0, 0, 0, 0, 0, 0, 0, 0, 0, 0, 0, 0, 0],
    [2, 0, 0, 0, 0, 0, 0, 0, 0, 0, 0, 0, 0, 0, 0, 0])) := by decide +kernel

/-! ### dab_filltree2 -/

namespace Spec

/-- The node after `t` steps of a path in the tree of `2 m` cells that turns right for `true`. -/
def pathNode (m : Nat) (bits : Nat → Bool) : Nat → Nat
  | 0 => m - 1
  | t + 1 => if bits t then pathNode m bits t + m / 2 ^ (t + 1) else pathNode m bits t - m / 2 ^ (t + 1)

/-- A path of `t` bits marks a node of the tree `a`, or (`some e`) ends at the last node, which is already marked: the nodes before
are marked. -/
def Marks (m : Nat) (bits : Nat → Bool) (a : List Nat) (t : Nat) (r : Option Nat) (a' : List Nat) : Prop :=
  1 ≤ t ∧ (∀ s, 1 ≤ s → s < t → a.getD (pathNode m bits s) 0 ≠ 0 ∧ 0 < m / 2 ^ (s + 1)) ∧ pathNode m bits t < a.length ∧
    ((r = none ∧ a.getD (pathNode m bits t) 0 = 0 ∧ a' = a.set (pathNode m bits t) 1) ∨
      (r = some (pathNode m bits t) ∧ a.getD (pathNode m bits t) 0 ≠ 0 ∧ m / 2 ^ (t + 1) = 0 ∧ a' = a))

/-- Marking nodes with the bits from place `k` on, until a path is full: `n` paths, `u` bits, the last path ending at `e`. -/
inductive Fills2 (bits : Nat → Bool) (m : Nat) : (k : Nat) → (a : List Nat) → (n u e : Nat) → Prop
  | full {k a t e} : Marks m (fun j => bits (k + j)) a t (some e) a → Fills2 bits m k a 1 t e
  | more {k a a' t n u e} : Marks m (fun j => bits (k + j)) a t none a' → Fills2 bits m (k + t) a' n u e →
      Fills2 bits m k a (n + 1) (t + u) e

/-- The results of successive trees of `size` cells: paths and last node of each. -/
inductive Forest2 (bits : Nat → Bool) (size : Nat) : (k : Nat) → List (Nat × Nat) → Prop
  | nil (k : Nat) : Forest2 bits size k []
  | cons {k n u e l} : Fills2 bits (size / 2) k (List.replicate size 0) n u e → Forest2 bits size (k + u) l →
      Forest2 bits size k ((n, e) :: l)

end Spec

/-- The state of the bit source before bit `k` of the stream. -/
structure BitSrc.At (r : Nat) (src : Src) (b : BitSrc) (k : Nat) : Prop where
  x : b.x = src (k / r) >>> (k % r)
  bitCount : b.bitCount = r - k % r
  pos : b.pos = k / r + 1

theorem BitSrc.next_spec (r : Nat) (src : Src) (b : BitSrc) (k : Nat) (hr : 1 ≤ r) (h : b.At r src k) :
    ∃ b', b.next r src = (Spec.lsbStream r src k, b') ∧ b'.At r src (k + 1) := by
  have hm := Nat.mod_lt k (show 0 < r by omega)
  have hdm := Nat.div_add_mod k r
  refine ⟨(b.next r src).2, Prod.ext ?_ rfl, ?_⟩
  · show decide (b.x &&& 1 ≠ 0) = _
    rw [h.x, Spec.lsbStream]
    generalize src (k / r) = w
    generalize k % r = n
    have : ((w >>> n) &&& 1 ≠ 0) ↔ w.getLsbD n = true := by
      constructor
      · intro h
        refine Classical.byContradiction fun hn => ?_
        apply h
        apply BitVec.eq_of_getLsbD_eq
        intro i hi
        by_cases h0 : i = 0
        · subst h0; simpa using hn
        · simp [BitVec.getLsbD_one, h0]
      · intro hw h0
        have := congrArg (fun v => BitVec.getLsbD v 0) h0
        simp [hw] at this
    by_cases hw : w.getLsbD n = true
    · rw [hw]; simpa using this.2 hw
    · rw [Bool.eq_false_iff.2 hw]
      simp only [decide_eq_false_iff_not]
      exact fun h => hw (this.1 h)
  · show BitSrc.At r src (if b.bitCount - 1 = 0 then _ else _) (k + 1)
    rw [h.bitCount]
    by_cases hl : k % r + 1 = r
    · have hq : (k + 1) / r = k / r + 1 ∧ (k + 1) % r = 0 := by
        have : k + 1 = r * (k / r + 1) := by rw [Nat.mul_add]; omega
        rw [this]
        exact ⟨by rw [Nat.mul_div_cancel_left _ (by omega)], Nat.mul_mod_right _ _⟩
      rw [if_pos (by omega)]
      constructor
      · show src b.pos = _; rw [h.pos, hq.1, hq.2]; simp
      · show r = _; rw [hq.2]; rfl
      · show b.pos + 1 = _; rw [h.pos, hq.1]
    · have hq : (k + 1) / r = k / r ∧ (k + 1) % r = k % r + 1 := by
        have h1 : k + 1 = k % r + 1 + r * (k / r) := by omega
        constructor
        · rw [h1, Nat.add_mul_div_left _ _ (by omega), Nat.div_eq_of_lt (by omega)]; simp
        · rw [h1, Nat.add_mul_mod_self_left, Nat.mod_eq_of_lt (by omega)]
      rw [if_neg (by omega)]
      constructor
      · show b.x >>> 1 = _
        rw [h.x, hq.1, hq.2, BitVec.shiftRight_add]
      · show r - k % r - 1 = _; rw [hq.2]; omega
      · show b.pos = _; rw [h.pos, hq.1]

/-- The bounds of the nodes of a path. -/
theorem pathNode_bounds (m : Nat) (bits : Nat → Bool) (hm : 1 ≤ m) :
    ∀ t, 2 * (m / 2 ^ (t + 1)) ≤ Spec.pathNode m bits t + 1 ∧
      Spec.pathNode m bits t + (2 * (m / 2 ^ (t + 1)) - 1) < 2 * m - 1 := by
  intro t
  induction t with
  | zero => simp only [Spec.pathNode]; omega
  | succ t ih =>
    have h2 : m / 2 ^ (t + 1 + 1) = m / 2 ^ (t + 1) / 2 := by rw [Nat.pow_succ 2 (t + 1), Nat.div_div_eq_div_mul]
    rw [Spec.pathNode, h2]
    generalize m / 2 ^ (t + 1) = d at ih ⊢
    split <;> omega

theorem ft2Path_spec (r : Nat) (src : Src) (hr : 1 ≤ r) (m : Nat) (hm : 1 ≤ m) (k : Nat) (array : List Nat)
    (hl : 2 * m ≤ array.length) (h31 : array.length < 2 ^ 31) :
    ∀ (fuel : Nat) (b : BitSrc) (t i d : Nat), b.At r src (k + t) →
      i = Spec.pathNode m (fun j => Spec.lsbStream r src (k + j)) t → d = m / 2 ^ (t + 1) →
      d < 2 ^ fuel → (t = 0 ∨ 0 < d) → 1 ≤ fuel →
      (∀ s, 1 ≤ s → s ≤ t → array.getD (Spec.pathNode m (fun j => Spec.lsbStream r src (k + j)) s) 0 ≠ 0 ∧
        0 < m / 2 ^ (s + 1)) →
      ∃ ret t' res a' b', ft2Path r src fuel b array i d = .ok (ret, a', b') ∧
        Spec.Marks m (fun j => Spec.lsbStream r src (k + j)) array t' res a' ∧ b'.At r src (k + t') ∧
        ret = (match res with | none => -1 | some e => (e : Int)) ∧ ∀ e, res = some e → e / 2 < m := by
  intro fuel
  induction fuel with
  | zero => intro b t i d _ _ _ _ _ h; omega
  | succ fuel ih =>
    intro b t i d hb hi hd h0 h1 _ hs
    obtain ⟨b', hn, hb'⟩ := BitSrc.next_spec r src b (k + t) hr hb
    have hbd := pathNode_bounds m (fun j => Spec.lsbStream r src (k + j)) hm
    have hbt := hbd t
    have hbt1 := hbd (t + 1)
    have hi' : (if Spec.lsbStream r src (k + t) then wadd i d else wsub i d) =
        Spec.pathNode m (fun j => Spec.lsbStream r src (k + j)) (t + 1) := by
      rw [Spec.pathNode, ← hi, ← hd]
      rw [← hi, ← hd] at hbt
      split
      · exact wadd_eq (by omega)
      · exact wsub_eq (by omega) (by omega)
    have hd' : d / 2 = m / 2 ^ (t + 1 + 1) := by
      rw [hd, Nat.pow_succ 2 (t + 1), Nat.div_div_eq_div_mul]
    rw [ft2Path, hn]
    simp only []
    rw [insertBit]
    simp only [hi', hd']
    have hlt : Spec.pathNode m (fun j => Spec.lsbStream r src (k + j)) (t + 1) < array.length := by omega
    rw [rd_ok hlt, Res.bind_ok]
    by_cases ha : array[Spec.pathNode m (fun j => Spec.lsbStream r src (k + j)) (t + 1)] = 0
    · rw [if_pos ha]
      refine ⟨-1, t + 1, none, array.set (Spec.pathNode m (fun j => Spec.lsbStream r src (k + j)) (t + 1)) 1, b', ?_,
        ⟨by omega, fun s h2 h3 => hs s h2 (by omega), hlt, .inl ⟨rfl, by rw [getD_eq_get hlt]; exact ha, rfl⟩⟩, hb', rfl,
        by simp⟩
      simp [wr, hlt]
    · rw [if_neg ha]
      by_cases hz : m / 2 ^ (t + 1 + 1) = 0
      · rw [if_pos hz, Res.bind_ok]
        refine ⟨_, t + 1, some (Spec.pathNode m (fun j => Spec.lsbStream r src (k + j)) (t + 1)), array, b', if_neg ?_,
          ⟨by omega, fun s h2 h3 => hs s h2 (by omega), hlt,
            .inr ⟨rfl, by rw [getD_eq_get hlt]; exact ha, hz, rfl⟩⟩, hb', rfl, ?_⟩
        · omega
        · intro e he; cases he; omega
      · rw [if_neg hz, Res.bind_ok]
        show ∃ ret t' res a' b'', (if (-2 : Int) = -2 then _ else _) = _ ∧ _
        rw [if_pos rfl]
        have hpos : 0 < m / 2 ^ (t + 1 + 1) := by omega
        have hfl : m / 2 ^ (t + 1 + 1) < 2 ^ fuel := by rw [← hd']; rw [Nat.pow_succ] at h0; omega
        have hf1 : 1 ≤ fuel := by
          cases fuel with
          | zero => simp at hfl; omega
          | succ f => omega
        exact ih b' (t + 1) _ _ hb' rfl rfl hfl (.inr hpos) hf1 (by
          intro s h2 h3
          by_cases h4 : s = t + 1
          · subst h4; exact ⟨by rw [getD_eq_get hlt]; exact ha, hpos⟩
          · exact hs s h2 (by omega))

/-- **C43**, `insertBit`: whatever bits the generator delivers, the path of a marker accesses only the tree, and either marks
exactly the first unmarked node below the root on its path, or reports the end of a path whose nodes are all marked; that end
belongs to one of the `size/2` positions. -/
theorem C43_insertBit (r : Nat) (src : Src) (hr : 1 ≤ r) (size k : Nat) (hs : 2 ≤ size) (h31 : size < 2 ^ 31) (b : BitSrc)
    (hb : b.At r src k) (array : List Nat) (hl : array.length = size) :
    ∃ ret t res a' b', ft2Path r src 32 b array (size / 2 - 1) ((size / 2 - 1 + 1) / 2) = .ok (ret, a', b') ∧
      Spec.Marks (size / 2) (fun j => Spec.lsbStream r src (k + j)) array t res a' ∧ b'.At r src (k + t) ∧
      ret = (match res with | none => -1 | some e => (e : Int)) ∧ ∀ e, res = some e → e / 2 < size / 2 := by
  refine ft2Path_spec r src hr (size / 2) (by omega) k array (by omega) (by omega) 32 b 0 _ _ hb rfl ?_ ?_ (.inl rfl)
    (by omega) (fun s h1 h2 => by omega)
  · show _ = size / 2 / 2; omega
  · omega

/-- The nodes of the tree below node `i`. -/
def treeNodes2 : (fuel i d : Nat) → List Nat
  | 0, _, _ => []
  | fuel + 1, i, d => (i + d) :: (i - d) :: (treeNodes2 fuel (i + d) (d / 2) ++ treeNodes2 fuel (i - d) (d / 2))

theorem treeNodes2_length : ∀ (fuel i d : Nat), (treeNodes2 fuel i d).length = 2 ^ (fuel + 1) - 2 := by
  intro fuel
  induction fuel with
  | zero => intro i d; simp [treeNodes2]
  | succ fuel ih =>
    intro i d
    have := Nat.one_le_two_pow (n := fuel)
    simp only [treeNodes2, List.length_cons, List.length_append, ih, Nat.pow_succ]
    omega

theorem treeNodes2_sub : ∀ (f g i d : Nat) (x : Nat), f ≤ g → x ∈ treeNodes2 f i d → x ∈ treeNodes2 g i d := by
  intro f
  induction f with
  | zero => intro g i d x _ h; simp [treeNodes2] at h
  | succ f ih =>
    intro g i d x hg h
    cases g with
    | zero => omega
    | succ g =>
      simp only [treeNodes2, List.mem_cons, List.mem_append] at h ⊢
      rcases h with h | h | h | h
      · exact .inl h
      · exact .inr (.inl h)
      · exact .inr (.inr (.inl (ih g _ _ _ (by omega) h)))
      · exact .inr (.inr (.inr (ih g _ _ _ (by omega) h)))

theorem pathNode_mem (m : Nat) (bits : Nat → Bool) :
    ∀ (u t : Nat), Spec.pathNode m bits (t + (u + 1)) ∈ treeNodes2 (u + 1) (Spec.pathNode m bits t) (m / 2 ^ (t + 1)) := by
  intro u
  induction u with
  | zero =>
    intro t
    show Spec.pathNode m bits (t + 1) ∈ _
    simp only [treeNodes2, Spec.pathNode, List.mem_cons]
    split
    · exact .inl rfl
    · exact .inr (.inl rfl)
  | succ u ih =>
    intro t
    have h := ih (t + 1)
    rw [show t + 1 + (u + 1) = t + (u + 1 + 1) by omega, Nat.pow_succ 2 (t + 1), ← Nat.div_div_eq_div_mul] at h
    rw [treeNodes2]
    simp only [List.mem_cons, List.mem_append]
    rw [Spec.pathNode] at h
    split at h
    · exact .inr (.inr (.inl h))
    · exact .inr (.inr (.inr h))

theorem pathNode_mem_tree (m : Nat) (bits : Nat → Bool) (f t : Nat) (h1 : 1 ≤ t) (h2 : t ≤ f) :
    Spec.pathNode m bits t ∈ treeNodes2 f (m - 1) (m / 2) := by
  obtain ⟨u, rfl⟩ : ∃ u, t = u + 1 := ⟨t - 1, by omega⟩
  have := pathNode_mem m bits u 0
  rw [Nat.zero_add, Nat.zero_add, Nat.pow_one] at this
  exact treeNodes2_sub _ f _ _ _ h2 this

theorem ft2Tree_spec (r : Nat) (src : Src) (hr : 1 ≤ r) (size f : Nat) (hs : 2 ≤ size) (h31 : size < 2 ^ 31)
    (hf1 : 1 ≤ f) (hf : size / 2 < 2 ^ (f + 1)) :
    ∀ (fuel : Nat) (b : BitSrc) (k i : Nat) (array : List Nat), b.At r src k → array.length = size →
      ((treeNodes2 f (size / 2 - 1) (size / 2 / 2)).countP fun j => array.getD j 0 == 0) < fuel →
      ((treeNodes2 f (size / 2 - 1) (size / 2 / 2)).countP fun j => array.getD j 0 == 0) + i ≤ 2 * size →
      ∃ n u e b', ft2Tree r src size fuel b i array = .ok (some ((e : Nat), i + n, b')) ∧
        Spec.Fills2 (Spec.lsbStream r src) (size / 2) k array n u e ∧ b'.At r src (k + u) ∧ e / 2 < size / 2 ∧ 1 ≤ n ∧
        n ≤ ((treeNodes2 f (size / 2 - 1) (size / 2 / 2)).countP fun j => array.getD j 0 == 0) + 1 := by
  intro fuel
  induction fuel with
  | zero => intro b k i array _ _ h; omega
  | succ fuel ih =>
    intro b k i array hb hl h1 h2
    obtain ⟨ret, t, res, a', b', he, hM, hb', hret, hr5⟩ := C43_insertBit r src hr size k hs h31 b hb array hl
    rw [ft2Tree, if_neg (by omega), he, Res.bind_ok]
    simp only []
    cases res with
    | some e =>
      subst hret
      refine ⟨1, t, e, b', if_neg (by simp only []; omega), .full ?_, hb', hr5 e rfl, by omega, by omega⟩
      have hM' := hM
      obtain ⟨_, _, _, h | h⟩ := hM'
      · cases h.1
      · obtain ⟨_, _, _, rfl⟩ := h; exact hM
    | none =>
      subst hret
      rw [if_pos rfl]
      have hM' := hM
      obtain ⟨ht, hmk, hlt, h | h⟩ := hM'
      · obtain ⟨_, h0, rfl⟩ := h
        have htf : t ≤ f := by
          refine Classical.byContradiction fun hc => ?_
          by_cases ht1 : t = 1
          · omega
          · have h3 := (hmk (t - 1) (by omega) (by omega)).2
            rw [show t - 1 + 1 = t by omega] at h3
            have h4 : 2 ^ (f + 1) ≤ 2 ^ t := Nat.pow_le_pow_right (by omega) (by omega)
            rw [Nat.div_eq_of_lt (by omega)] at h3
            omega
        have hc := count_empty array _ _ 1 (by omega) hlt h0
          (pathNode_mem_tree (size / 2) (fun j => Spec.lsbStream r src (k + j)) f t ht htf)
        obtain ⟨n, u, e, b'', h3, h4, h5, h6, h7, h8⟩ := ih b' (k + t) (i + 1)
          (array.set (Spec.pathNode (size / 2) (fun j => Spec.lsbStream r src (k + j)) t) 1) hb'
          (by rw [List.length_set]; exact hl) (by omega) (by omega)
        refine ⟨n + 1, t + u, e, b'', ?_, .more hM h4, by rw [← Nat.add_assoc]; exact h5, h6, by omega, by omega⟩
        rw [h3, show i + 1 + n = i + (n + 1) by omega]
      · cases h.1

theorem ft2Loop_spec (r : Nat) (src : Src) (hr : 1 ≤ r) (size f : Nat) (hs : 2 ≤ size) (h31 : size < 2 ^ 31)
    (hf1 : 1 ≤ f) (hf : size / 2 < 2 ^ (f + 1)) (hf2 : 2 ^ (f + 1) ≤ 2 * size + 2) (c0 p0 : List Nat)
    (hc0 : 2 ^ (f + 1) ≤ c0.length + 1) (hp0 : size / 2 = p0.length) :
    ∀ (todo : Nat) (b : BitSrc) (k : Nat) (lc lp counts position : List Nat), b.At r src k →
      Tallied c0 lc counts → Tallied p0 lp position →
      ∃ l counts' position', ft2Loop r src size todo b counts position = .ok (some (counts', position')) ∧
        Spec.Forest2 (Spec.lsbStream r src) size k l ∧ l.length = todo ∧
        (∀ t ∈ l, 1 ≤ t.1 ∧ t.1 ≤ 2 ^ (f + 1) - 1 ∧ t.2 / 2 < size / 2) ∧
        Tallied c0 (lc ++ l.map fun t => t.1 - 1) counts' ∧ Tallied p0 (lp ++ l.map fun t => t.2 / 2) position' := by
  intro todo
  induction todo with
  | zero =>
    intro b k lc lp counts position _ hc hp
    exact ⟨[], counts, position, rfl, .nil _, rfl, by simp, by simpa using hc, by simpa using hp⟩
  | succ todo ih =>
    intro b k lc lp counts position hb hc hp
    have h1 := Nat.one_le_two_pow (n := f)
    have hpw : 2 ^ (f + 1) = 2 ^ f * 2 := Nat.pow_succ 2 f
    have hn : ((treeNodes2 f (size / 2 - 1) (size / 2 / 2)).countP fun j => (List.replicate size 0).getD j 0 == 0) ≤
        2 ^ (f + 1) - 2 := by
      have := treeNodes2_length f (size / 2 - 1) (size / 2 / 2)
      rw [← this]
      exact List.countP_le_length
    obtain ⟨n, u, e, b', h2, h3, h3', h4, h5, h6⟩ := ft2Tree_spec r src hr size f hs h31 hf1 hf (2 * size + 2) b k 0
      (List.replicate size 0) hb (by simp) (by omega) (by omega)
    rw [ft2Loop, h2, Res.bind_ok]
    obtain ⟨p', hp1, hp2⟩ := hp.bump (i := e / 2) (by omega)
    obtain ⟨c', hc1, hc2⟩ := hc.bump (i := n - 1) (by omega)
    simp only [Int.toNat_natCast, hp1, Res.bind_ok, Nat.zero_add, hc1]
    obtain ⟨l, c'', p'', h7, h8, h9, h10, h11, h12⟩ := ih b' (k + u) _ _ _ _ h3' hc2 hp2
    refine ⟨(n, e) :: l, c'', p'', h7, .cons h3 h8, by simp [h9], ?_, by simpa using h11, by simpa using h12⟩
    intro t ht
    rcases List.mem_cons.1 ht with rfl | ht
    · exact ⟨h5, by show n ≤ _; omega, h4⟩
    · exact h10 t ht

/-- **C43**, `dab_filltree2`: for every generator and trees of up to 255 cells (128 by default), only the tree and the tables are
accessed; every tree is filled until a path is full, with at most 127 paths, and is counted in both tables: under the number of
its paths and under the position of the last one. -/
theorem C43_filltree2 (r : Nat) (src : Src) (hr : 1 ≤ r) (ntuple tsamples : Nat) (h1 : ntuple ≠ 1) (h2 : ntuple ≤ 255) :
    let size := if ntuple = 0 then 128 else ntuple
    ∃ l counts position, fillTree2 r src ntuple tsamples = .ok (some (counts, position)) ∧
      Spec.Forest2 (Spec.lsbStream r src) size 0 l ∧
      l.length = tsamples ∧ (∀ t ∈ l, 1 ≤ t.1 ∧ t.1 ≤ 127 ∧ t.2 / 2 < size / 2) ∧
      (∀ n, 1 ≤ n → counts.getD (n - 1) 0 = l.countP fun t => t.1 == n) ∧
      (∀ q, position.getD q 0 = l.countP fun t => t.2 / 2 == q) ∧
      counts.length = 128 ∧ counts.sum = tsamples ∧ position.length = size / 2 ∧ position.sum = tsamples := by
  intro size
  have hs : 2 ≤ size ∧ size ≤ 255 := by simp only [size]; split <;> omega
  have key' : ∃ f, 1 ≤ f ∧ f ≤ 6 ∧ size / 2 < 2 ^ (f + 1) ∧ 2 ^ (f + 1) ≤ 2 * size + 2 := by
    have : size / 2 < 4 ∨ (4 ≤ size / 2 ∧ size / 2 < 8) ∨ (8 ≤ size / 2 ∧ size / 2 < 16) ∨
      (16 ≤ size / 2 ∧ size / 2 < 32) ∨ (32 ≤ size / 2 ∧ size / 2 < 64) ∨ (64 ≤ size / 2 ∧ size / 2 < 128) := by omega
    rcases this with h | h | h | h | h | h
    · exact ⟨1, by omega, by omega, by omega, by omega⟩
    · exact ⟨2, by omega, by omega, by omega, by omega⟩
    · exact ⟨3, by omega, by omega, by omega, by omega⟩
    · exact ⟨4, by omega, by omega, by omega, by omega⟩
    · exact ⟨5, by omega, by omega, by omega, by omega⟩
    · exact ⟨6, by omega, by omega, by omega, by omega⟩
  obtain ⟨f, hf1, hf4, hf, hf2⟩ := key'
  have h128 : 2 ^ (f + 1) ≤ 128 := Nat.pow_le_pow_right (n := 2) (j := 7) (by omega) (by omega)
  have hb : BitSrc.At r src ⟨src 0, r, 1⟩ 0 := ⟨by simp, by simp, by simp⟩
  obtain ⟨l, c, p, h3, h4, h5, h6, h7, h8⟩ := ft2Loop_spec r src hr size f hs.1 (by omega) hf1 hf hf2 (List.replicate 128 0)
    (List.replicate (size / 2) 0) (by simp; omega) (by simp) tsamples _ 0 [] [] _ _ hb (.nil _) (.nil _)
  refine ⟨l, c, p, ?_, h4, h5, fun t ht => ?_, fun n hn => ?_, fun q => ?_, ?_, ?_, ?_, ?_⟩
  · show (ft2Loop r src size tsamples ⟨src 0, r, 1⟩ (List.replicate 128 0) (List.replicate (size / 2) 0) >>= _) = _
    rw [h3, Res.bind_ok]
    show (if size / 2 ≤ 128 then _ else _) = _
    rw [if_pos (by omega)]
  · have := h6 t ht; omega
  · rw [h7.get, List.nil_append, List.count_eq_countP, List.countP_map]
    have : (List.replicate 128 0).getD (n - 1) 0 = 0 := by
      simp only [List.getD, List.getElem?_replicate]; split <;> rfl
    rw [this, Nat.zero_add]
    apply List.countP_congr
    intro t ht
    have := h6 t ht
    simp only [Function.comp, beq_iff_eq]
    omega
  · rw [h8.get, List.nil_append, List.count_eq_countP, List.countP_map]
    have : (List.replicate (size / 2) 0).getD q 0 = 0 := by
      simp only [List.getD, List.getElem?_replicate]; split <;> rfl
    rw [this, Nat.zero_add]
    rfl
  · rw [h7.len]; simp
  · rw [h7.sum]; simp [List.sum_replicate_nat, h5]
  · rw [h8.len]; simp
  · rw [h8.sum]; simp [List.sum_replicate_nat, h5]

/-- Non-vacuity: the bits of the constant word 1 of a 2-bit generator, in a tree of 4 cells. -/
example : fillTree2 2 (fun _ => 1) 4 3 = .ok (some (0 :: 0 :: 3 :: List.replicate 125 0, [1, 2])) := by decide +kernel

end Dh
