import Verif.Proof.Stopping
import Mathlib.Data.Nat.Choose.Sum
/-
The law of the number of markers and of the last position when a binary tree is filled along random paths.
-/
namespace Dh
open Spec

/-! ### Random bits, one at a time -/

/-- The sequence `s` with `a` in front. -/
def consSeq {A : Type*} (a : A) (s : Nat → A) : Nat → A
  | 0 => a
  | i + 1 => s i

theorem drop_consSeq {A : Type*} (a : A) (s : Nat → A) : dropSeq 1 (consSeq a s) = s := by
  funext i; rw [dropSeq, Nat.add_comm]; rfl

theorem mean_consSeq (B : Nat) (F : (Nat → Bool) → ℝ) :
    (mean fun ω : Fin (B + 1) → Bool => F (padSeq false ω)) =
      ((mean fun ω : Fin B → Bool => F (consSeq false (padSeq false ω))) +
        mean fun ω : Fin B → Bool => F (consSeq true (padSeq false ω))) / 2 := by
  have e := mean_equiv (Fin.consEquiv fun _ : Fin (B + 1) => Bool) (fun ω : Fin (B + 1) → Bool => F (padSeq false ω))
  rw [← e]
  have h : ∀ q : Bool × (Fin B → Bool), padSeq false (Fin.consEquiv (fun _ : Fin (B + 1) => Bool) q) = consSeq q.1 (padSeq false q.2) := by
    intro q
    funext i
    cases i with
    | zero => simp [padSeq, consSeq, Fin.consEquiv]
    | succ i =>
      by_cases hi : i < B
      · simp only [padSeq, consSeq, dif_pos hi, dif_pos (Nat.succ_lt_succ hi)]
        exact Fin.cons_succ (α := fun _ : Fin (B + 1) => Bool) q.1 q.2 ⟨i, hi⟩
      · simp only [padSeq, consSeq, dif_neg hi, dif_neg (fun h => hi (Nat.lt_of_succ_lt_succ h))]
  simp only [h]
  unfold mean
  rw [Fintype.sum_prod_type, Fintype.card_prod, Fintype.card_bool, Fintype.sum_bool]
  push_cast
  rw [← add_div, div_div, add_comm, mul_comm]

/-! ### Trees and paths -/

/-- A tree of nodes, without the ones that are not marked. -/
inductive MTree
  | e
  | n (l r : MTree)

/-- The end of a path: a node is marked, or the path with number `q` is full. -/
inductive PathEnd
  | marked (t : MTree)
  | full (q : Nat)

def PathEnd.left (r : MTree) : PathEnd → PathEnd
  | .marked t => .marked (.n t r)
  | .full q => .full q

def PathEnd.right (l : MTree) (h : Nat) : PathEnd → PathEnd
  | .marked t => .marked (.n l t)
  | .full q => .full (q + 2 ^ h)

/-- A path in a tree of height `h`, and the number of bits. -/
def walk : (h : Nat) → MTree → (Nat → Bool) → PathEnd × Nat
  | _, .e, _ => (.marked (.n .e .e), 0)
  | 0, .n _ _, _ => (.full 0, 0)
  | h + 1, .n l r, s =>
    if s 0 then ((walk h r (dropSeq 1 s)).1.right l h, (walk h r (dropSeq 1 s)).2 + 1)
    else ((walk h l (dropSeq 1 s)).1.left r, (walk h l (dropSeq 1 s)).2 + 1)

/-- The mean of a function of the end of a path. -/
noncomputable def stepMean : (h : Nat) → MTree → (PathEnd → ℝ) → ℝ
  | _, .e, φ => φ (.marked (.n .e .e))
  | 0, .n _ _, φ => φ (.full 0)
  | h + 1, .n l r, φ => (stepMean h l (fun o => φ (o.left r)) + stepMean h r (fun o => φ (o.right l h))) / 2

theorem walk_le : ∀ (h : Nat) (t : MTree) (s : Nat → Bool), (walk h t s).2 ≤ h
  | h, .e, s => by cases h <;> simp [walk]
  | 0, .n _ _, s => by simp [walk]
  | h + 1, .n l r, s => by
    rw [walk]
    split
    · exact Nat.succ_le_succ (walk_le h r _)
    · exact Nat.succ_le_succ (walk_le h l _)

theorem walk_adapt : ∀ (h : Nat) (t : MTree) (s s' : Nat → Bool), (∀ i < (walk h t s).2, s i = s' i) → walk h t s' = walk h t s
  | h, .e, s, s', _ => by cases h <;> simp [walk]
  | 0, .n _ _, s, s', _ => by simp [walk]
  | h + 1, .n l r, s, s', hs => by
    rw [walk] at hs
    have h0 : s 0 = s' 0 := hs 0 (by split <;> exact Nat.succ_pos _)
    rw [walk, walk, ← h0]
    cases hb : s 0 with
    | true =>
      rw [hb, if_pos rfl] at hs
      rw [walk_adapt h r (dropSeq 1 s) (dropSeq 1 s') fun i hi => hs (1 + i) (by simp only; omega), if_pos rfl, if_pos rfl]
    | false =>
      rw [hb, if_neg (by simp)] at hs
      rw [walk_adapt h l (dropSeq 1 s) (dropSeq 1 s') fun i hi => hs (1 + i) (by simp only; omega), if_neg (by simp), if_neg (by simp)]

theorem dropSeq_dropSeq {A : Type*} (a b : Nat) (s : Nat → A) : dropSeq a (dropSeq b s) = dropSeq (a + b) s := by
  funext i; simp only [dropSeq]; congr 1; omega

/-- The bits after a path are as random as before. -/
theorem mean_walk : ∀ (h : Nat) (t : MTree) (B : Nat) (Φ : PathEnd → (Nat → Bool) → ℝ) (c : PathEnd → ℝ),
    (∀ o B', B ≤ B' → (mean fun ω : Fin B' → Bool => Φ o (padSeq false ω)) = c o) → ∀ B', B + h ≤ B' →
    (mean fun ω : Fin B' → Bool => Φ (walk h t (padSeq false ω)).1 (dropSeq (walk h t (padSeq false ω)).2 (padSeq false ω))) =
      stepMean h t c
  | h, .e, B, Φ, c, hc, B', hB => by
    have e : ∀ s, walk h .e s = (.marked (.n .e .e), 0) := fun s => by cases h <;> rfl
    have e2 : stepMean h .e c = c (.marked (.n .e .e)) := by cases h <;> rfl
    simp only [e, e2]
    rw [← hc _ B' (by omega)]
    refine mean_congr fun ω => ?_
    congr 1
    funext i; simp [dropSeq]
  | 0, .n _ _, B, Φ, c, hc, B', hB => by
    simp only [walk, stepMean]
    rw [← hc _ B' (by omega)]
    refine mean_congr fun ω => ?_
    congr 1
    funext i; simp [dropSeq]
  | h + 1, .n l r, B, Φ, c, hc, B', hB => by
    obtain ⟨b, rfl⟩ : ∃ b, B' = b + 1 := ⟨B' - 1, by omega⟩
    rw [mean_consSeq b fun s => Φ (walk (h + 1) (.n l r) s).1 (dropSeq (walk (h + 1) (.n l r) s).2 s), stepMean,
      ← mean_walk h l B (fun o => Φ (o.left r)) (fun o => c (o.left r)) (fun o B' hB' => hc _ B' hB') b (by omega),
      ← mean_walk h r B (fun o => Φ (o.right l h)) (fun o => c (o.right l h)) (fun o B' hB' => hc _ B' hB') b (by omega)]
    have e1 : ∀ s, walk (h + 1) (.n l r) (consSeq false s) = ((walk h l s).1.left r, (walk h l s).2 + 1) := by
      intro s; rw [walk, if_neg (by simp [consSeq]), drop_consSeq]
    have e2 : ∀ s, walk (h + 1) (.n l r) (consSeq true s) = ((walk h r s).1.right l h, (walk h r s).2 + 1) := by
      intro s; rw [walk, if_pos (by simp [consSeq]), drop_consSeq]
    have e3 : ∀ (a : Bool) u s, dropSeq (u + 1) (consSeq a s) = dropSeq u s := by
      intro a u s; rw [← dropSeq_dropSeq, drop_consSeq]
    simp only [e1, e2, e3]

theorem stepMean_congr (h : Nat) (t : MTree) {φ ψ : PathEnd → ℝ} (e : ∀ o, φ o = ψ o) : stepMean h t φ = stepMean h t ψ := by
  rw [funext e]

theorem stepMean_add : ∀ (h : Nat) (t : MTree) (φ ψ : PathEnd → ℝ), stepMean h t (fun o => φ o + ψ o) = stepMean h t φ + stepMean h t ψ
  | h, .e, φ, ψ => by cases h <;> rfl
  | 0, .n _ _, φ, ψ => rfl
  | h + 1, .n l r, φ, ψ => by
    simp only [stepMean]
    rw [stepMean_add h l (fun o => φ (o.left r)) fun o => ψ (o.left r), stepMean_add h r (fun o => φ (o.right l h)) fun o => ψ (o.right l h)]
    ring

theorem stepMean_mul : ∀ (h : Nat) (t : MTree) (c : ℝ) (φ : PathEnd → ℝ), stepMean h t (fun o => c * φ o) = c * stepMean h t φ
  | h, .e, c, φ => by cases h <;> rfl
  | 0, .n _ _, c, φ => rfl
  | h + 1, .n l r, c, φ => by
    simp only [stepMean]
    rw [stepMean_mul h l c (fun o => φ (o.left r)), stepMean_mul h r c (fun o => φ (o.right l h))]
    ring

theorem stepMean_sum {ι : Type*} (h : Nat) (t : MTree) (S : Finset ι) (φ : ι → PathEnd → ℝ) :
    stepMean h t (fun o => ∑ i ∈ S, φ i o) = ∑ i ∈ S, stepMean h t (φ i) := by
  classical
  induction S using Finset.induction_on with
  | empty => simpa using stepMean_mul h t 0 fun _ => 0
  | insert a S ha ih =>
    rw [Finset.sum_insert ha, ← ih, ← stepMean_add]
    exact stepMean_congr h t fun o => Finset.sum_insert ha

/-! ### The number of paths that mark a node -/

/-- The law of a number of paths that divide into two subtrees. -/
noncomputable def binConv (f g : Nat → ℝ) (k : Nat) : ℝ := (∑ j ∈ Finset.range (k + 1), (k.choose j : ℝ) * f j * g (k - j)) / 2 ^ k

/-- All of `k` paths mark a node in an empty tree of height `h`. -/
noncomputable def emptyLaw : (h k : Nat) → ℝ
  | _, 0 => 1
  | 0, k + 1 => if k = 0 then 1 else 0
  | h + 1, k + 1 => binConv (emptyLaw h) (emptyLaw h) k

/-- All of `k` paths mark a node in a tree of height `h`. -/
noncomputable def markLaw : (h : Nat) → MTree → (k : Nat) → ℝ
  | h, .e, k => emptyLaw h k
  | 0, .n _ _, k => if k = 0 then 1 else 0
  | h + 1, .n l r, k => binConv (markLaw h l) (markLaw h r) k

theorem binConv_succ (f g : Nat → ℝ) (k : Nat) :
    binConv f g (k + 1) = (binConv (fun j => f (j + 1)) g k + binConv f (fun j => g (j + 1)) k) / 2 := by
  have key : ∑ j ∈ Finset.range (k + 2), ((k + 1).choose j : ℝ) * f j * g (k + 1 - j) =
      (∑ j ∈ Finset.range (k + 1), (k.choose j : ℝ) * f (j + 1) * g (k - j)) +
        ∑ j ∈ Finset.range (k + 1), (k.choose j : ℝ) * f j * g (k - j + 1) := by
    rw [Finset.sum_range_succ' _ (k + 1)]
    have h1 : ∀ j ∈ Finset.range (k + 1), ((k + 1).choose (j + 1) : ℝ) * f (j + 1) * g (k + 1 - (j + 1)) =
        (k.choose j : ℝ) * f (j + 1) * g (k - j) + (k.choose (j + 1) : ℝ) * f (j + 1) * g (k - j) := by
      intro j _
      rw [Nat.choose_succ_succ, Nat.add_sub_add_right]
      push_cast; ring
    rw [Finset.sum_congr rfl h1, Finset.sum_add_distrib, add_assoc]
    congr 1
    rw [Finset.sum_range_succ, Nat.choose_succ_self, Finset.sum_range_succ' _ k]
    simp only [Nat.cast_zero, zero_mul, add_zero, Nat.choose_zero_right, Nat.sub_zero]
    congr 1
    refine Finset.sum_congr rfl fun j hj => ?_
    have := Finset.mem_range.1 hj
    rw [show k - (j + 1) + 1 = k - j by omega]
  rw [binConv, key, binConv, binConv, pow_succ]
  field_simp

theorem markLaw_zero : ∀ (h : Nat) (t : MTree), markLaw h t 0 = 1
  | h, .e => by cases h <;> simp [markLaw, emptyLaw]
  | 0, .n _ _ => by simp [markLaw]
  | h + 1, .n l r => by simp [markLaw, binConv, markLaw_zero h l, markLaw_zero h r]

/-- The value `v t` if the path has marked a node. -/
def PathEnd.ifMarked (v : MTree → ℝ) : PathEnd → ℝ
  | .marked t => v t
  | .full _ => 0

/-- The value `v q` if the path was full. -/
def PathEnd.ifFull (v : Nat → ℝ) : PathEnd → ℝ
  | .marked _ => 0
  | .full q => v q

/-- One path after the other. -/
theorem markLaw_succ : ∀ (h : Nat) (t : MTree) (k : Nat), markLaw h t (k + 1) = stepMean h t (PathEnd.ifMarked fun t' => markLaw h t' k)
  | h, .e, k => by
    cases h with
    | zero => rfl
    | succ h =>
      have e : ∀ h, markLaw h .e = emptyLaw h := fun h => by cases h <;> rfl
      show emptyLaw (h + 1) (k + 1) = markLaw (h + 1) (.n .e .e) k
      rw [emptyLaw, markLaw, e]
  | 0, .n _ _, k => by simp [markLaw, stepMean, PathEnd.ifMarked]
  | h + 1, .n l r, k => by
    have e : markLaw (h + 1) (.n l r) (k + 1) = binConv (markLaw h l) (markLaw h r) (k + 1) := rfl
    rw [e, binConv_succ, stepMean]
    congr 2
    · have : ∀ j, markLaw h l (j + 1) = stepMean h l (PathEnd.ifMarked fun t' => markLaw h t' j) := markLaw_succ h l
      simp only [binConv, this]
      rw [div_eq_mul_inv, mul_comm]
      have h2 : ∀ o : PathEnd, (PathEnd.ifMarked (fun t' => markLaw (h + 1) t' k)) (o.left r) =
          (2 ^ k : ℝ)⁻¹ * ∑ j ∈ Finset.range (k + 1), ((k.choose j : ℝ) * markLaw h r (k - j)) * (PathEnd.ifMarked fun t' => markLaw h t' j) o := by
        intro o
        cases o with
        | marked t =>
          show binConv (markLaw h t) (markLaw h r) k = _
          rw [binConv, div_eq_mul_inv, mul_comm]
          congr 1
          exact Finset.sum_congr rfl fun j _ => by show _ = _ * markLaw h t j; ring
        | full q => show (0 : ℝ) = _; rw [Finset.sum_eq_zero fun j _ => by show _ * (0 : ℝ) = 0; ring]; ring
      rw [stepMean_congr h l h2, stepMean_mul, stepMean_sum]
      congr 1
      refine Finset.sum_congr rfl fun j _ => ?_
      rw [stepMean_mul]; ring
    · have : ∀ j, markLaw h r (j + 1) = stepMean h r (PathEnd.ifMarked fun t' => markLaw h t' j) := markLaw_succ h r
      simp only [binConv, this]
      rw [div_eq_mul_inv, mul_comm]
      have h2 : ∀ o : PathEnd, (PathEnd.ifMarked (fun t' => markLaw (h + 1) t' k)) (o.right l h) =
          (2 ^ k : ℝ)⁻¹ * ∑ j ∈ Finset.range (k + 1), ((k.choose j : ℝ) * markLaw h l j) * (PathEnd.ifMarked fun t' => markLaw h t' (k - j)) o := by
        intro o
        cases o with
        | marked t =>
          show binConv (markLaw h l) (markLaw h t) k = _
          rw [binConv, div_eq_mul_inv, mul_comm]
          rfl
        | full q => show (0 : ℝ) = _; rw [Finset.sum_eq_zero fun j _ => by show _ * (0 : ℝ) = 0; ring]; ring
      rw [stepMean_congr h r h2, stepMean_mul, stepMean_sum]
      congr 1
      refine Finset.sum_congr rfl fun j _ => ?_
      rw [stepMean_mul]

/-! ### The last path -/

/-- After `k` paths that mark a node the next one is full and has the number `q`. -/
noncomputable def endLaw (h q : Nat) : (k : Nat) → MTree → ℝ
  | 0, t => stepMean h t (PathEnd.ifFull fun q' => if q' = q then 1 else 0)
  | k + 1, t => stepMean h t (PathEnd.ifMarked (endLaw h q k))

/-- The paths of level `i` below a node are exchanged if the digit `2 ^ i` of `m` is 1. -/
def flipTree : (h m : Nat) → MTree → MTree
  | _, _, .e => .e
  | 0, _, .n l r => .n l r
  | h + 1, m, .n l r => if m.testBit h then .n (flipTree h m r) (flipTree h m l) else .n (flipTree h m l) (flipTree h m r)

/-- The number of the exchanged path. -/
def flipNum : (h m q : Nat) → Nat
  | 0, _, q => q
  | h + 1, m, q =>
    if m.testBit h then (if q < 2 ^ h then flipNum h m q + 2 ^ h else flipNum h m (q - 2 ^ h))
    else (if q < 2 ^ h then flipNum h m q else flipNum h m (q - 2 ^ h) + 2 ^ h)

theorem flipNum_lt : ∀ (h m q : Nat), q < 2 ^ h → flipNum h m q < 2 ^ h
  | 0, _, _, hq => hq
  | h + 1, m, q, hq => by
    rw [pow_succ] at hq
    have h1 := fun q => flipNum_lt h m q
    rw [flipNum, pow_succ]
    split <;> split
    · have := h1 q ‹_›; omega
    · have := h1 (q - 2 ^ h) (by omega); omega
    · have := h1 q ‹_›; omega
    · have := h1 (q - 2 ^ h) (by omega); omega

def PathEnd.flip (h m : Nat) : PathEnd → PathEnd
  | .marked t => .marked (flipTree h m t)
  | .full q => .full (flipNum h m q)

/-- The numbers of full paths. -/
def PathEnd.InRange (h : Nat) : PathEnd → Prop
  | .marked _ => True
  | .full q => q < 2 ^ h

theorem stepMean_congr_range : ∀ (h : Nat) (t : MTree) {φ ψ : PathEnd → ℝ}, (∀ o, o.InRange h → φ o = ψ o) → stepMean h t φ = stepMean h t ψ
  | h, .e, φ, ψ, e => by cases h <;> exact e _ trivial
  | 0, .n _ _, φ, ψ, e => e _ (by show 0 < 2 ^ 0; norm_num)
  | h + 1, .n l r, φ, ψ, e => by
    rw [stepMean, stepMean]
    congr 2
    · refine stepMean_congr_range h l fun o ho => e _ ?_
      cases o with
      | marked t => trivial
      | full q => show q < _; have : q < 2 ^ h := ho; rw [pow_succ]; omega
    · refine stepMean_congr_range h r fun o ho => e _ ?_
      cases o with
      | marked t => trivial
      | full q => show q + 2 ^ h < _; have : q < 2 ^ h := ho; rw [pow_succ]; omega

theorem stepMean_flip (m : Nat) : ∀ (h : Nat) (t : MTree) (φ : PathEnd → ℝ), stepMean h (flipTree h m t) φ = stepMean h t fun o => φ (o.flip h m)
  | h, .e, φ => by
    cases h with
    | zero => rfl
    | succ h =>
      show φ _ = φ _
      congr 1
      show _ = PathEnd.marked (flipTree (h + 1) m (.n .e .e))
      rw [flipTree]
      cases h <;> simp [flipTree]
  | 0, .n _ _, φ => rfl
  | h + 1, .n l r, φ => by
    rw [flipTree, stepMean]
    have hp : ∀ q, ¬ q + 2 ^ h < 2 ^ h := fun q => by omega
    by_cases hm : m.testBit h = true
    · rw [if_pos hm, stepMean, stepMean_flip m h r, stepMean_flip m h l, add_comm]
      congr 2
      · refine stepMean_congr_range h l fun o ho => ?_
        cases o with
        | marked t =>
          show φ (.marked _) = φ (.marked (flipTree (h + 1) m (.n t r)))
          rw [flipTree, if_pos hm]
        | full q =>
          show φ (.full _) = φ (.full (flipNum (h + 1) m q))
          rw [flipNum, if_pos hm, if_pos (show q < 2 ^ h from ho)]
      · refine stepMean_congr_range h r fun o ho => ?_
        cases o with
        | marked t =>
          show φ (.marked _) = φ (.marked (flipTree (h + 1) m (.n l t)))
          rw [flipTree, if_pos hm]
        | full q =>
          show φ (.full _) = φ (.full (flipNum (h + 1) m (q + 2 ^ h)))
          rw [flipNum, if_pos hm, if_neg (hp q), Nat.add_sub_cancel]
    · rw [if_neg hm, stepMean, stepMean_flip m h r, stepMean_flip m h l]
      congr 2
      · refine stepMean_congr_range h l fun o ho => ?_
        cases o with
        | marked t =>
          show φ (.marked _) = φ (.marked (flipTree (h + 1) m (.n t r)))
          rw [flipTree, if_neg hm]
        | full q =>
          show φ (.full _) = φ (.full (flipNum (h + 1) m q))
          rw [flipNum, if_neg hm, if_pos (show q < 2 ^ h from ho)]
      · refine stepMean_congr_range h r fun o ho => ?_
        cases o with
        | marked t =>
          show φ (.marked _) = φ (.marked (flipTree (h + 1) m (.n l t)))
          rw [flipTree, if_neg hm]
        | full q =>
          show φ (.full _) = φ (.full (flipNum (h + 1) m (q + 2 ^ h)))
          rw [flipNum, if_neg hm, if_neg (hp q), Nat.add_sub_cancel]

theorem flipNum_inj (m : Nat) : ∀ (h q q' : Nat), q < 2 ^ h → q' < 2 ^ h → flipNum h m q = flipNum h m q' → q = q'
  | 0, _, _, _, _, e => e
  | h + 1, q, q', hq, hq', e => by
    rw [pow_succ] at hq hq'
    have h1 := fun q => flipNum_lt h m q
    have ih := flipNum_inj m h
    rw [flipNum, flipNum] at e
    by_cases a : q < 2 ^ h <;> by_cases b : q' < 2 ^ h
    · have := ih q q' a b
      cases hm : m.testBit h <;> simp [hm, a, b] at e <;> omega
    · have k1 := h1 q a
      have k2 := h1 (q' - 2 ^ h) (by omega)
      cases hm : m.testBit h <;> simp [hm, a, b] at e <;> omega
    · have k1 := h1 (q - 2 ^ h) (by omega)
      have k2 := h1 q' b
      cases hm : m.testBit h <;> simp [hm, a, b] at e <;> omega
    · have := ih (q - 2 ^ h) (q' - 2 ^ h) (by omega) (by omega)
      cases hm : m.testBit h <;> simp [hm, a, b] at e <;> omega

theorem flipNum_zero (m : Nat) : ∀ h, flipNum h m 0 = m % 2 ^ h
  | 0 => by simp [flipNum, Nat.mod_one]
  | h + 1 => by
    have hp : 0 < 2 ^ h := by positivity
    rw [flipNum, if_pos hp, if_pos hp, flipNum_zero m h, Nat.mod_pow_succ, Nat.testBit_eq_decide_div_mod_eq]
    rcases Nat.mod_two_eq_zero_or_one (m / 2 ^ h) with e | e <;> simp [e]

theorem endLaw_flip (h m q : Nat) (hq : q < 2 ^ h) : ∀ (k : Nat) (t : MTree), endLaw h (flipNum h m q) k (flipTree h m t) = endLaw h q k t
  | 0, t => by
    rw [endLaw, endLaw, stepMean_flip]
    refine stepMean_congr_range h t fun o ho => ?_
    cases o with
    | marked t => rfl
    | full q' =>
      show (if flipNum h m q' = flipNum h m q then (1 : ℝ) else 0) = if q' = q then 1 else 0
      by_cases e : q' = q
      · rw [if_pos e, if_pos (by rw [e])]
      · rw [if_neg e, if_neg fun e' => e (flipNum_inj m h q' q ho hq e')]
  | k + 1, t => by
    rw [endLaw, endLaw, stepMean_flip]
    refine stepMean_congr h t fun o => ?_
    cases o with
    | marked t => exact endLaw_flip h m q hq k t
    | full q' => rfl

theorem endLaw_sum (h : Nat) : ∀ (k : Nat) (t : MTree), ∑ q ∈ Finset.range (2 ^ h), endLaw h q k t = markLaw h t k - markLaw h t (k + 1)
  | 0, t => by
    have e : (∀ o : PathEnd, o.InRange h → ∑ q ∈ Finset.range (2 ^ h), (PathEnd.ifFull fun q' => if q' = q then (1 : ℝ) else 0) o =
        (1 : ℝ) * (fun _ => 1) o + (-1) * (PathEnd.ifMarked fun t' => markLaw h t' 0) o) := by
      intro o ho
      cases o with
      | marked t => simp [PathEnd.ifFull, PathEnd.ifMarked, markLaw_zero]
      | full q' =>
        show ∑ q ∈ Finset.range (2 ^ h), (if q' = q then (1 : ℝ) else 0) = 1 * 1 + -1 * 0
        rw [Finset.sum_ite_eq, if_pos (Finset.mem_range.2 ho)]; ring
    have one : ∀ (h : Nat) (t : MTree), stepMean h t (fun _ => 1) = 1 := by
      intro h t
      induction h generalizing t with
      | zero => cases t <;> rfl
      | succ h ih => cases t with
        | e => rfl
        | n l r => rw [stepMean, ih, ih]; norm_num
    simp only [endLaw]
    rw [← stepMean_sum, stepMean_congr_range h t e, stepMean_add, stepMean_mul, stepMean_mul, one, markLaw_succ, markLaw_zero]
    ring
  | k + 1, t => by
    simp only [endLaw]
    rw [← stepMean_sum, markLaw_succ h t k, markLaw_succ h t (k + 1)]
    have e : ∀ o : PathEnd, ∑ q ∈ Finset.range (2 ^ h), (PathEnd.ifMarked (endLaw h q k)) o =
        (PathEnd.ifMarked fun t' => markLaw h t' k) o + (-1) * (PathEnd.ifMarked fun t' => markLaw h t' (k + 1)) o := by
      intro o
      cases o with
      | marked t => show ∑ q ∈ Finset.range (2 ^ h), endLaw h q k t = markLaw h t k + -1 * markLaw h t (k + 1); rw [endLaw_sum h k t]; ring
      | full q' => simp [PathEnd.ifMarked]
    rw [stepMean_congr h t e, stepMean_add, stepMean_mul]
    ring

/-- In a tree without marks the last path is uniform, whatever the number of paths before. -/
theorem endLaw_empty (h k q : Nat) (hq : q < 2 ^ h) :
    endLaw h q k (.n .e .e) = (markLaw h (.n .e .e) k - markLaw h (.n .e .e) (k + 1)) / 2 ^ h := by
  have hf : ∀ m, flipTree h m (.n .e .e) = .n .e .e := by
    intro m
    cases h with
    | zero => rfl
    | succ h => rw [flipTree]; cases h <;> simp [flipTree]
  have key : ∀ q < 2 ^ h, endLaw h q k (.n .e .e) = endLaw h 0 k (.n .e .e) := by
    intro q hq
    have := endLaw_flip h q 0 (by positivity) k (.n .e .e)
    rwa [hf, flipNum_zero, Nat.mod_eq_of_lt hq] at this
  have hs := endLaw_sum h k (.n .e .e)
  rw [Finset.sum_congr rfl fun q hq => key q (Finset.mem_range.1 hq), Finset.sum_const, Finset.card_range, nsmul_eq_mul, ← key q hq] at hs
  rw [← hs]
  push_cast
  field_simp

/-! ### The whole tree -/

/-- Paths until one is full: their number, the bits and the number of the last path. -/
def fillWalk (h : Nat) : (fuel : Nat) → MTree → (Nat → Bool) → Nat × Nat × Nat
  | 0, _, _ => (1, 0, 0)
  | fuel + 1, t, s =>
    match walk h t s with
    | (.full q, u) => (1, u, q)
    | (.marked t', u) =>
      ((fillWalk h fuel t' (dropSeq u s)).1 + 1, u + (fillWalk h fuel t' (dropSeq u s)).2.1, (fillWalk h fuel t' (dropSeq u s)).2.2)

theorem fillWalk_pos (h : Nat) : ∀ (fuel : Nat) (t : MTree) (s : Nat → Bool), 1 ≤ (fillWalk h fuel t s).1
  | 0, _, _ => le_rfl
  | fuel + 1, t, s => by
    rw [fillWalk]
    rcases walk h t s with ⟨o, u⟩
    cases o with
    | full q' => exact le_rfl
    | marked t' => exact Nat.le_add_left 1 _

theorem mean_fillWalk (h q : Nat) : ∀ (fuel k : Nat) (t : MTree) (B : Nat), k < fuel → h * (k + 1) ≤ B →
    (mean fun ω : Fin B → Bool => if (fillWalk h fuel t (padSeq false ω)).1 = k + 1 ∧ (fillWalk h fuel t (padSeq false ω)).2.2 = q then (1 : ℝ) else 0) =
      endLaw h q k t
  | 0, k, t, B, hk, _ => by omega
  | fuel + 1, 0, t, B, _, hB => by
    rw [endLaw, ← mean_walk h t 0 (fun o _ => (PathEnd.ifFull fun q' => if q' = q then (1 : ℝ) else 0) o) _
      (fun o B' _ => mean_const (Ω := Fin B' → Bool) _) B (by omega)]
    refine mean_congr fun ω => ?_
    rw [fillWalk]
    rcases walk h t (padSeq false ω) with ⟨o, u⟩
    cases o with
    | full q' => simp [PathEnd.ifFull]
    | marked t' =>
      show (if (fillWalk h fuel t' _).1 + 1 = 0 + 1 ∧ _ then (1 : ℝ) else 0) = 0
      rw [if_neg]
      rintro ⟨h1, -⟩
      have := fillWalk_pos h fuel t' (dropSeq u (padSeq false ω))
      omega
  | fuel + 1, k + 1, t, B, hk, hB => by
    rw [endLaw, ← mean_walk h t (h * (k + 1)) (fun o s => (PathEnd.ifMarked fun t' =>
      if (fillWalk h fuel t' s).1 = k + 1 ∧ (fillWalk h fuel t' s).2.2 = q then (1 : ℝ) else 0) o) _ ?_ B (by rw [Nat.mul_succ] at hB; exact hB)]
    · refine mean_congr fun ω => ?_
      rw [fillWalk]
      rcases walk h t (padSeq false ω) with ⟨o, u⟩
      cases o with
      | full q' => simp [PathEnd.ifMarked]
      | marked t' =>
        show (if (fillWalk h fuel t' _).1 + 1 = k + 1 + 1 ∧ _ then (1 : ℝ) else 0) = _
        simp [PathEnd.ifMarked]
    · intro o B' hB'
      cases o with
      | full q' => exact mean_const (Ω := Fin B' → Bool) 0
      | marked t' => exact mean_fillWalk h q fuel k t' B' (by omega) hB'

end Dh
