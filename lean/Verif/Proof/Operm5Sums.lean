import Verif.Proof.Operm5
/-
The sums of the table of diehard_operm5.c over the arrangements of six, seven, eight and nine values.
-/
set_option linter.unusedSimpArgs false
namespace Dh
open Spec

/-- The table entry, in units of 10^-14. -/
def op5Entry (a b : Nat) : Int := (op5Table.getD a []).getD b 0

/-! ### Reduction to sums over Lehmer codes -/

theorem listCell_drop (L : List Nat) (l : Nat) : listCell L l = listCell (L.drop l) 0 := by
  simp only [listCell, List.getD_eq_getElem?_getD, List.getElem?_drop, Nat.zero_add]

theorem listCell_grow {l m : Nat} {s L : List Nat} (hs : 5 ≤ s.length) (h : L ∈ grow l m s) : listCell L 0 = listCell s 0 := by
  obtain ⟨g, t, h1, rfl, -⟩ := grow_mem l m s L h
  refine kpermLoop_congr 4 _ _ 0 ?_
  intro a ha b hb
  have e : ∀ a < 5, (s.map g ++ t).getD (0 + a) 0 = g (s.getD (0 + a) 0) := by
    intro a ha
    rw [Nat.zero_add, List.getD_append _ _ _ _ (by rw [List.length_map]; omega), List.getD_eq_getElem _ _ (by rw [List.length_map]; omega),
      List.getElem_map, List.getD_eq_getElem _ _ (by omega)]
  simp only
  rw [e a ha, e b hb, Int.ofNat_le, Int.ofNat_le, h1.le_iff_le]

theorem sum_arrangements (Φ : Nat → Nat → Int) (l : Nat) (hl : l ≤ 5) :
    ((arrangements (5 + l)).map fun L => Φ (listCell L 0) (listCell L l)).sum =
      ((arrangements 5).map fun L => ((grow l 5 (L.drop l)).map fun s => Φ (listCell L 0) (cellTab.getD (leh s) 0)).sum).sum := by
  have hmem : ∀ M ∈ arrangements (5 + l), M.length = 5 + l ∧ M.Nodup := fun M hM =>
    ⟨(arrangements_mem _ M hM).1, (arrangements_mem _ M hM).2.2⟩
  rw [arrangements_add] at hmem ⊢
  rw [List.map_flatMap, List.flatMap, List.sum_flatten, List.map_map]
  congr 1
  refine List.map_congr_left fun L hL => ?_
  have hLl := (arrangements_mem 5 L hL).1
  rw [Function.comp_apply, ← grow_drop l 5 L l (by omega), List.map_map]
  congr 1
  refine List.map_congr_left fun M hM => ?_
  obtain ⟨h1, h2⟩ := hmem M (List.mem_flatMap.2 ⟨L, hL, hM⟩)
  rw [listCell_grow (by omega) hM, listCell_drop M l, Function.comp_apply,
    (listCell_leh (M.drop l) (by rw [List.length_drop]; omega) (h2.sublist (List.drop_sublist _ _))).1]

theorem grow_length : ∀ (l m : Nat) (s : List Nat), (grow l m s).length = (m + 1).ascFactorial l
  | 0, m, s => rfl
  | l + 1, m, s => by
    rw [grow, List.length_flatMap]
    have : (List.range (m + 1)).map (fun r => (grow l (m + 1) (putLast r s)).length) = List.replicate (m + 1) ((m + 1 + 1).ascFactorial l) := by
      rw [List.eq_replicate_iff]
      refine ⟨by simp, fun x hx => ?_⟩
      obtain ⟨r, -, rfl⟩ := List.mem_map.1 hx
      exact grow_length l (m + 1) _
    rw [this, List.sum_replicate, smul_eq_mul, Nat.succ_ascFactorial, Nat.ascFactorial_succ]

/-! ### Packed rows -/

def toWord (x : Int) : Nat := Int.toNat (Int.add x 576460752303423488)
def packRow (row : List Int) : Nat := List.rec 0 (fun x _ ih => Nat.add (toWord x) (Nat.mul 18446744073709551616 ih)) row
def digit64 (R i : Nat) : Nat := Nat.mod (Nat.div R (Nat.pow 18446744073709551616 i)) 18446744073709551616
def packCol (t : List (List Int)) (a : Nat) : Nat :=
  List.rec 0 (fun row _ ih => Nat.add (digit64 (packRow row) a) (Nat.mul 18446744073709551616 ih)) t
def cellOf (c : Nat) : Nat :=
  Nat.mod (Nat.div 4544226865859304842530261184011036676429047896982291306681597487428182356346151492864260440617578770576956919457077102345299741993252172304191675554080906750566395523021231165854110041352718471653379094486879630684121504798150473733655677289232596149571797595420515416992629293335475259915 (Nat.pow 256 c)) 256
def force (x : Nat) (f : Nat → Nat) : Nat := Nat.rec (f 0) (fun n _ => f (Nat.succ n)) x
def lagFast (l : Nat) (A : List (List Nat)) : Nat :=
  List.rec 0 (fun L _ ih => Nat.add ih (force (packRow (op5Table.getD (listCell L 0) [])) fun R => force (packCol op5Table (listCell L 0)) fun C =>
    lehSum (fun c => Nat.add (digit64 R (cellOf c)) (digit64 C (cellOf c))) l 5 (5 - l) (L.drop l) (leh (L.drop l)))) A

/-- A number with the digits `D` in base `2^64`. -/
def packDigits (D : List Nat) : Nat := D.foldr (fun d acc => d + 18446744073709551616 * acc) 0

theorem digit64_pack : ∀ (D : List Nat), (∀ d ∈ D, d < 2 ^ 64) → ∀ i, digit64 (packDigits D) i = D.getD i 0
  | [], _, i => by
    show 0 / _ % _ = _
    rw [Nat.zero_div]
    simp
  | d :: D, h, i => by
    have hd := h d (by simp)
    have ih := digit64_pack D fun e he => h e (by simp [he])
    cases i with
    | zero =>
      show (d + 18446744073709551616 * packDigits D) / 18446744073709551616 ^ 0 % 18446744073709551616 = d
      rw [pow_zero, Nat.div_one, Nat.add_mul_mod_self_left, Nat.mod_eq_of_lt (by norm_num at hd; exact hd)]
    | succ i =>
      have e := ih i
      rw [List.getD_cons_succ, ← e]
      show (d + 18446744073709551616 * packDigits D) / 18446744073709551616 ^ (i + 1) % 18446744073709551616 =
        packDigits D / 18446744073709551616 ^ i % 18446744073709551616
      rw [pow_succ', ← Nat.div_div_eq_div_mul, Nat.add_mul_div_left d _ (by norm_num : 0 < 18446744073709551616), Nat.div_eq_of_lt (a := d) (by norm_num at hd; exact hd), Nat.zero_add]

theorem packRow_eq : ∀ row : List Int, packRow row = packDigits (row.map toWord)
  | [] => rfl
  | x :: row => by
    show toWord x + 18446744073709551616 * packRow row = _
    rw [packRow_eq row]
    rfl

theorem packCol_eq (a : Nat) : ∀ t : List (List Int), packCol t a = packDigits (t.map fun row => digit64 (packRow row) a)
  | [] => rfl
  | row :: t => by
    show digit64 (packRow row) a + 18446744073709551616 * packCol t a = _
    rw [packCol_eq a t]
    rfl

theorem force_eq (x : Nat) (f : Nat → Nat) : force x f = f x := by
  cases x <;> rfl

theorem lagFast_eq (l : Nat) : ∀ A : List (List Nat), lagFast l A = (A.map fun L => lehSum (fun c => digit64 (packRow (op5Table.getD (listCell L 0) [])) (cellOf c) +
    digit64 (packCol op5Table (listCell L 0)) (cellOf c)) l 5 (5 - l) (L.drop l) (leh (L.drop l))).sum
  | [] => rfl
  | L :: A => by
    show lagFast l A + force _ _ = _
    rw [lagFast_eq l A, force_eq, force_eq, List.map_cons, List.sum_cons, Nat.add_comm]
    rfl

set_option maxRecDepth 100000 in
theorem op5Table_rows : op5Table.length = 120 ∧ ∀ row ∈ op5Table, row.length = 120 ∧ ∀ x ∈ row, -(2 ^ 59 : Int) ≤ x ∧ x < 2 ^ 59 := by
  decide +kernel

theorem op5Row_mem {a : Nat} (h : a < 120) : op5Table.getD a [] ∈ op5Table := by
  rw [List.getD_eq_getElem _ _ (by rw [op5Table_rows.1]; exact h)]
  exact List.getElem_mem _

theorem op5Entry_mem {a b : Nat} (ha : a < 120) (hb : b < 120) : op5Entry a b ∈ op5Table.getD a [] := by
  have h := (op5Table_rows.2 _ (op5Row_mem ha)).1
  rw [op5Entry]
  generalize op5Table.getD a [] = row at h ⊢
  rw [List.getD_eq_getElem _ _ (by omega)]
  exact List.getElem_mem _

theorem toWord_eq {x : Int} (h : -(2 ^ 59 : Int) ≤ x ∧ x < 2 ^ 59) : (toWord x : Int) = x + 2 ^ 59 ∧ toWord x < 2 ^ 64 := by
  have e : toWord x = (x + 576460752303423488).toNat := rfl
  rw [e]
  omega

theorem packRow_digit {a b : Nat} (ha : a < 120) (hb : b < 120) :
    (digit64 (packRow (op5Table.getD a [])) b : Int) = op5Entry a b + 2 ^ 59 ∧ digit64 (packRow (op5Table.getD a [])) b < 2 ^ 64 := by
  have hr := op5Table_rows.2 _ (op5Row_mem ha)
  have h1 : digit64 (packRow (op5Table.getD a [])) b = toWord (op5Entry a b) := by
    rw [op5Entry]
    generalize op5Table.getD a [] = row at hr ⊢
    rw [packRow_eq, digit64_pack _ (by
      intro d hd
      obtain ⟨x, hx, rfl⟩ := List.mem_map.1 hd
      exact (toWord_eq (hr.2 x hx)).2), List.getD_eq_getElem _ _ (by rw [List.length_map, hr.1]; exact hb), List.getElem_map,
      List.getD_eq_getElem _ _ (by rw [hr.1]; exact hb)]
  rw [h1]
  exact toWord_eq (hr.2 _ (op5Entry_mem ha hb))

theorem packCol_digit {a b : Nat} (ha : a < 120) (hb : b < 120) : (digit64 (packCol op5Table a) b : Int) = op5Entry b a + 2 ^ 59 := by
  have h1 : digit64 (packCol op5Table a) b = digit64 (packRow (op5Table.getD b [])) a := by
    rw [packCol_eq, digit64_pack _ (by
      intro d hd
      obtain ⟨row, -, rfl⟩ := List.mem_map.1 hd
      exact Nat.mod_lt _ (by norm_num)), List.getD_eq_getElem _ _ (by rw [List.length_map, op5Table_rows.1]; exact hb), List.getElem_map,
      List.getD_eq_getElem _ _ (by rw [op5Table_rows.1]; exact hb)]
  rw [h1]
  exact (packRow_digit hb ha).1

theorem cellOf_eq : ∀ c < 120, cellOf c = cellTab.getD c 0 ∧ cellTab.getD c 0 < 120 := by decide +kernel

theorem listCell_lt (L : List Nat) (o : Nat) : listCell L o < 120 := (kpermLoop_form 4 _ 0).2

/-- The sum over all arrangements, by the fast enumeration. -/
theorem lag_total (l : Nat) (hl : l ≤ 5) :
    ((arrangements (5 + l)).map fun L => op5Entry (listCell L 0) (listCell L l) + op5Entry (listCell L l) (listCell L 0)).sum =
      (lagFast l (arrangements 5) : Int) - 2 ^ 60 * (120 * Nat.ascFactorial 6 l : Nat) := by
  rw [sum_arrangements (fun a b => op5Entry a b + op5Entry b a) l hl, lagFast_eq]
  have key : ∀ L ∈ arrangements 5, ((grow l 5 (L.drop l)).map fun s => op5Entry (listCell L 0) (cellTab.getD (leh s) 0) +
      op5Entry (cellTab.getD (leh s) 0) (listCell L 0)).sum = (lehSum (fun c => digit64 (packRow (op5Table.getD (listCell L 0) [])) (cellOf c) +
        digit64 (packCol op5Table (listCell L 0)) (cellOf c)) l 5 (5 - l) (L.drop l) (leh (L.drop l)) : Int) - 2 ^ 60 * (Nat.ascFactorial 6 l : Nat) := by
    intro L hL
    obtain ⟨h1, h2, h3⟩ := arrangements_mem 5 L hL
    have hlen : (L.drop l).length = 5 - l := by rw [List.length_drop, h1]
    have e := lehSum_eq (fun c => digit64 (packRow (op5Table.getD (listCell L 0) [])) (cellOf c) +
        digit64 (packCol op5Table (listCell L 0)) (cellOf c)) l 5 (L.drop l) (by omega) (fun d hd => h2 d (List.mem_of_mem_drop hd))
    rw [hlen] at e
    rw [← e, ← grow_length l 5 (L.drop l)]
    have hleh : ∀ s ∈ grow l 5 (L.drop l), leh s < 120 := by
      intro s hs
      rw [← grow_drop l 5 L l (by omega)] at hs
      obtain ⟨M, hM, rfl⟩ := List.mem_map.1 hs
      have hM2 : M ∈ arrangements (5 + l) := by rw [arrangements_add]; exact List.mem_flatMap.2 ⟨L, hL, hM⟩
      obtain ⟨g1, -, g3⟩ := arrangements_mem _ M hM2
      exact (listCell_leh (M.drop l) (by rw [List.length_drop]; omega) (g3.sublist (List.drop_sublist _ _))).2
    revert hleh
    generalize grow l 5 (L.drop l) = X
    intro hleh
    induction X with
    | nil => simp
    | cons s X ih =>
      have hs := cellOf_eq (leh s) (hleh s (by simp))
      rw [List.map_cons, List.sum_cons, ih fun t ht => hleh t (by simp [ht]), List.map_cons, List.sum_cons, List.length_cons, hs.1]
      push_cast
      rw [(packRow_digit (listCell_lt L 0) hs.2).1, packCol_digit (listCell_lt L 0) hs.2]
      ring
  rw [List.map_congr_left key]
  have hlen : (arrangements 5).length = 120 := by decide +kernel
  have fin : ∀ (A : List (List Nat)) (f : List Nat → Nat) (c : Int), (A.map fun L => (f L : Int) - c).sum = ((A.map f).sum : Nat) - c * A.length := by
    intro A f c
    induction A with
    | nil => simp
    | cons L A ih => rw [List.map_cons, List.sum_cons, ih, List.map_cons, List.sum_cons, List.length_cons]; push_cast; ring
  rw [fin, hlen]
  push_cast
  ring

end Dh
