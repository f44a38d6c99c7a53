import Mathlib.Data.List.GetD
import Verif.Proof.Orders
import Verif.Props.Perms
import Verif.Model.Operm5Table
/-
Order patterns of overlapping windows of five: the sums of the table of diehard_operm5.c over all arrangements.

The functions `ge16`, `put16`, `below16`, `sumTo`, `lehSum` are written with recursors and the operations of `Nat`, so that the kernel
evaluates them fast.
-/
set_option linter.unusedSimpArgs false
namespace Dh
open Spec

/-! ### The lists of all arrangements -/

theorem mem_putLast {r x : Nat} {L : List Nat} : x ∈ putLast r L ↔ (∃ v ∈ L, (if v < r then v else v + 1) = x) ∨ x = r := by
  simp [putLast]

theorem putLast_length (r : Nat) (L : List Nat) : (putLast r L).length = L.length + 1 := by simp [putLast]

theorem up_strictMono (r : Nat) : StrictMono fun v : Nat => if v < r then v else v + 1 := by
  intro a b h
  simp only
  split <;> split <;> omega

theorem putLast_nodup {r : Nat} {L : List Nat} (h : L.Nodup) : (putLast r L).Nodup := by
  rw [putLast, List.nodup_append]
  refine ⟨h.map (up_strictMono r).injective, by simp, ?_⟩
  intro a ha b hb e
  rw [List.mem_singleton] at hb
  subst hb
  subst e
  obtain ⟨v, -, hv⟩ := List.mem_map.1 ha
  revert hv
  split <;> omega

theorem arrangements_mem : ∀ (m : Nat) (L : List Nat), L ∈ arrangements m → L.length = m ∧ (∀ d ∈ L, d < m) ∧ L.Nodup
  | 0, L, h => by
    rw [arrangements, List.mem_singleton] at h
    subst h
    simp
  | m + 1, L, h => by
    rw [arrangements, List.mem_flatMap] at h
    obtain ⟨M, hM, h⟩ := h
    obtain ⟨r, hr, rfl⟩ := List.mem_map.1 h
    obtain ⟨h1, h2, h3⟩ := arrangements_mem m M hM
    rw [List.mem_range] at hr
    refine ⟨by rw [putLast_length, h1], ?_, putLast_nodup h3⟩
    intro d hd
    rcases mem_putLast.1 hd with ⟨v, hv, rfl⟩ | rfl
    · have := h2 v hv
      split <;> omega
    · exact hr

theorem permList_mem : ∀ (m : Nat) (τ : Equiv.Perm (Fin m)), permList τ ∈ arrangements m
  | 0, τ => by simp [permList, arrangements]
  | m + 1, τ => by
    obtain ⟨⟨r, ρ⟩, rfl⟩ := (insertLast_bijective m).2 τ
    rw [permList_insertLast, arrangements, List.mem_flatMap]
    exact ⟨permList ρ, permList_mem m ρ, List.mem_map.2 ⟨r, List.mem_range.2 r.2, rfl⟩⟩

theorem permList_getD {m : Nat} (π : Equiv.Perm (Fin m)) (a : Nat) (h : a < m) : (permList π).getD a 0 = (π ⟨a, h⟩).val := by
  have hl : a < (permList π).length := by rw [permList, List.length_ofFn]; exact h
  rw [List.getD_eq_getElem _ _ hl]
  exact List.getElem_ofFn _

/-- All the ways to append `l` values to `m` values, seen on the list `s` of some of the values. -/
def grow : (l m : Nat) → List Nat → List (List Nat)
  | 0, _, s => [s]
  | l + 1, m, s => (List.range (m + 1)).flatMap fun r => grow l (m + 1) (putLast r s)

theorem arrangements_add : ∀ (l m : Nat), arrangements (m + l) = (arrangements m).flatMap (grow l m)
  | 0, m => by
    have : grow 0 m = fun s => [s] := rfl
    rw [this]
    simp
  | l + 1, m => by
    rw [show m + (l + 1) = m + 1 + l from by omega, arrangements_add l (m + 1), arrangements, List.flatMap_assoc]
    congr 1
    funext s
    rw [List.flatMap_map, grow]

theorem grow_mem : ∀ (l m : Nat) (s L : List Nat), L ∈ grow l m s → ∃ (g : Nat → Nat) (t : List Nat), StrictMono g ∧ L = s.map g ++ t ∧ t.length = l
  | 0, m, s, L, h => by
    rw [grow, List.mem_singleton] at h
    exact ⟨id, [], strictMono_id, by simp [h], rfl⟩
  | l + 1, m, s, L, h => by
    rw [grow, List.mem_flatMap] at h
    obtain ⟨r, -, h⟩ := h
    obtain ⟨g, t, h1, h2, h3⟩ := grow_mem l (m + 1) _ L h
    refine ⟨g ∘ fun v => if v < r then v else v + 1, g r :: t, h1.comp (up_strictMono r), ?_, by simp [h3]⟩
    rw [h2, putLast]
    simp

theorem grow_drop : ∀ (l m : Nat) (s : List Nat) (d : Nat), d ≤ s.length → (grow l m s).map (List.drop d) = grow l m (s.drop d)
  | 0, m, s, d, _ => rfl
  | l + 1, m, s, d, h => by
    rw [grow, grow, List.map_flatMap]
    congr 1
    funext r
    rw [grow_drop l (m + 1) _ d (by rw [putLast_length]; omega)]
    congr 1
    rw [putLast, putLast, List.drop_append_of_le_length (by simpa using h), List.map_drop]

/-! ### Lehmer codes -/

/-- The number of values below `r`. -/
def belowCount (r : Nat) (s : List Nat) : Nat := s.countP fun d => decide (d < r)

/-- Mixed radix number whose digits are, for each value, the number of earlier smaller values. -/
def lehGo : (pre : List Nat) → (c : Nat) → List Nat → Nat
  | _, c, [] => c
  | pre, c, r :: t => lehGo (pre ++ [r]) ((pre.length + 1) * c + belowCount r pre) t

/-- The Lehmer code of a list. -/
def leh (s : List Nat) : Nat := lehGo [] 0 s

theorem lehGo_append : ∀ (s t pre : List Nat) (c : Nat), lehGo pre c (s ++ t) = lehGo (pre ++ s) (lehGo pre c s) t
  | [], t, pre, c => by simp [lehGo]
  | r :: s, t, pre, c => by
    rw [List.cons_append, lehGo, lehGo_append s t, lehGo]
    simp

theorem leh_concat (s : List Nat) (r : Nat) : leh (s ++ [r]) = (s.length + 1) * leh s + belowCount r s := by
  rw [leh, lehGo_append, List.nil_append, lehGo, lehGo]
  rfl

theorem lehGo_order (z : List (Nat × Nat)) : ∀ (z' pre : List (Nat × Nat)) (c : Nat), pre ++ z' = z →
    (∀ p ∈ z, ∀ q ∈ z, p.1 < q.1 ↔ p.2 < q.2) → lehGo (pre.map Prod.fst) c (z'.map Prod.fst) = lehGo (pre.map Prod.snd) c (z'.map Prod.snd)
  | [], pre, c, _, _ => by simp [lehGo]
  | q :: z', pre, c, hz, h => by
    have hb : belowCount q.1 (pre.map Prod.fst) = belowCount q.2 (pre.map Prod.snd) := by
      rw [belowCount, belowCount, List.countP_map, List.countP_map]
      refine List.countP_congr fun p hp => ?_
      have := h p (by rw [← hz]; simp [hp]) q (by rw [← hz]; simp)
      simpa using this
    have := lehGo_order z z' (pre ++ [q]) ((pre.length + 1) * c + belowCount q.1 (pre.map Prod.fst)) (by simpa using hz) h
    simp only [List.map_cons, lehGo, List.length_map]
    rw [← hb]
    simpa using this

theorem leh_map {g : Nat → Nat} (hg : StrictMono g) (s : List Nat) : leh (s.map g) = leh s := by
  have h := lehGo_order (s.map fun v => (g v, v)) (s.map fun v => (g v, v)) [] 0 rfl (by
    intro p hp q hq
    obtain ⟨a, -, rfl⟩ := List.mem_map.1 hp
    obtain ⟨b, -, rfl⟩ := List.mem_map.1 hq
    exact hg.lt_iff_lt)
  simp only [List.map_map, List.map_nil] at h
  have e2 : s.map (Prod.snd ∘ fun v => (g v, v)) = s := by
    conv_rhs => rw [← List.map_id s]
    rfl
  rw [e2] at h
  exact h

theorem leh_putLast (r : Nat) (s : List Nat) : leh (putLast r s) = (s.length + 1) * leh s + belowCount r (s.map fun v => if v < r then v else v + 1) := by
  rw [putLast, leh_concat, leh_map (up_strictMono r), List.length_map]

theorem belowCount_up (r : Nat) (s : List Nat) : belowCount r (s.map fun v => if v < r then v else v + 1) = belowCount r s := by
  rw [belowCount, belowCount, List.countP_map]
  refine List.countP_congr fun d _ => ?_
  simp only [Function.comp, decide_eq_true_eq]
  split <;> omega

/-! ### Fast enumeration -/

def ge16 (r d : Nat) : Nat := Nat.div (Nat.sub (Nat.add d 16) r) 16
def put16 (r : Nat) (s : List Nat) : List Nat := List.rec [r] (fun d _ ih => (Nat.add d (ge16 r d)) :: ih) s
def below16 (r : Nat) (s : List Nat) : Nat := List.rec 0 (fun d _ ih => Nat.sub (Nat.add ih 1) (ge16 r d)) s
def sumTo (n : Nat) (f : Nat → Nat) : Nat := Nat.rec 0 (fun i ih => Nat.add ih (f i)) n
def lehSum (φ : Nat → Nat) (l : Nat) : (m k : Nat) → List Nat → (c : Nat) → Nat :=
  Nat.rec (fun _ _ _ c => φ c) (fun _ ih m k s c => sumTo (Nat.succ m) fun r =>
    ih (Nat.succ m) (Nat.succ k) (put16 r s) (Nat.add (Nat.mul (Nat.succ k) c) (below16 r s))) l

theorem ge16_eq {r d : Nat} (hr : r ≤ 16) (hd : d < 16) : ge16 r d = if d < r then 0 else 1 := by
  show (d + 16 - r) / 16 = _
  split
  · exact Nat.div_eq_of_lt (by omega)
  · rw [Nat.div_eq_of_lt_le] <;> omega

theorem put16_eq {r : Nat} (hr : r ≤ 16) : ∀ s : List Nat, (∀ d ∈ s, d < 16) → put16 r s = putLast r s
  | [], _ => rfl
  | d :: s, h => by
    have ih := put16_eq hr s fun e he => h e (by simp [he])
    show (d + ge16 r d) :: put16 r s = _
    rw [ih, ge16_eq hr (h d (by simp)), putLast, putLast, List.map_cons, List.cons_append]
    congr 1
    split <;> rfl

theorem below16_eq {r : Nat} (hr : r ≤ 16) : ∀ s : List Nat, (∀ d ∈ s, d < 16) → below16 r s = belowCount r s
  | [], _ => rfl
  | d :: s, h => by
    have ih := below16_eq hr s fun e he => h e (by simp [he])
    show below16 r s + 1 - ge16 r d = _
    rw [ih, ge16_eq hr (h d (by simp)), belowCount, belowCount, List.countP_cons]
    by_cases hd : d < r <;> simp [hd]

theorem sumTo_eq (f : Nat → Nat) : ∀ n : Nat, sumTo n f = ((List.range n).map f).sum
  | 0 => rfl
  | n + 1 => by
    show sumTo n f + f n = _
    rw [sumTo_eq f n, List.range_succ, List.map_append, List.sum_append]
    simp

theorem lehSum_eq (φ : Nat → Nat) : ∀ (l m : Nat) (s : List Nat), m + l ≤ 16 → (∀ d ∈ s, d < m) →
    ((grow l m s).map fun L => φ (leh L)).sum = lehSum φ l m s.length s (leh s)
  | 0, m, s, _, _ => by simp [grow, lehSum]
  | l + 1, m, s, hm, hs => by
    show _ = sumTo (m + 1) fun r => lehSum φ l (m + 1) (s.length + 1) (put16 r s) ((s.length + 1) * leh s + below16 r s)
    rw [grow, List.map_flatMap, List.flatMap, List.sum_flatten, List.map_map, sumTo_eq]
    congr 1
    refine List.map_congr_left fun r hr => ?_
    rw [List.mem_range] at hr
    have hs16 : ∀ d ∈ s, d < 16 := fun d hd => by have := hs d hd; omega
    rw [Function.comp_apply, lehSum_eq φ l (m + 1) (putLast r s) (by omega), putLast_length, leh_putLast, belowCount_up,
      put16_eq (by omega) s hs16, below16_eq (by omega) s hs16]
    intro d hd
    rcases mem_putLast.1 hd with ⟨v, hv, rfl⟩ | rfl
    · have := hs v hv
      split <;> omega
    · exact hr

/-! ### Cells -/

/-- The cell of the five values from place `o` on. -/
def listCell (L : List Nat) (o : Nat) : Nat := kpermLoop 4 (fun i => ((L.getD (o + i) 0 : Nat) : ℤ)) 0

/-- The cell of each Lehmer code. -/
def cellTab : List Nat := [11, 10, 6, 3, 99, 9, 8, 7, 2, 98, 21, 20, 19, 1, 97, 75, 74, 73, 91, 115, 15, 14, 13, 5, 101, 17, 16, 12, 4,
  100, 23, 22, 18, 0, 96, 77, 76, 72, 90, 114, 50, 51, 53, 61, 109, 49, 48, 52, 60, 108, 67, 66, 70, 64, 112, 85, 84, 88, 94, 118, 28, 29,
  27, 30, 102, 24, 25, 26, 31, 103, 42, 43, 44, 32, 104, 78, 79, 80, 92, 116, 36, 37, 38, 34, 106, 40, 41, 39, 35, 107, 46, 47, 45, 33, 105,
  82, 83, 81, 93, 117, 55, 54, 58, 62, 110, 56, 57, 59, 63, 111, 68, 69, 71, 65, 113, 86, 87, 89, 95, 119]

theorem listCell_arrangements : ∀ L ∈ arrangements 5, listCell L 0 = cellTab.getD (leh L) 0 ∧ leh L < 120 := by decide +kernel

theorem listCell_perm : ((arrangements 5).map fun L => listCell L 0).Perm (List.range 120) := by decide +kernel

theorem listCell_leh (s : List Nat) (hl : s.length = 5) (hd : s.Nodup) : listCell s 0 = cellTab.getD (leh s) 0 ∧ leh s < 120 := by
  have hinj : Function.Injective fun i : Fin 5 => s.getD i 0 := by
    intro i j e
    simp only at e
    rw [List.getD_eq_getElem _ _ (by omega), List.getD_eq_getElem _ _ (by omega)] at e
    exact Fin.ext (hd.getElem_inj_iff.1 e)
  obtain ⟨π, hπ⟩ := exists_rank _ hinj
  have hm := listCell_arrangements _ (permList_mem 5 π)
  have es : s = List.ofFn fun i : Fin 5 => s.getD i 0 := by
    apply List.ext_getElem (by simp [hl])
    intro i h1 h2
    rw [List.getElem_ofFn, List.getD_eq_getElem]
  have e1 : leh s = leh (permList π) := by
    have h := lehGo_order (List.ofFn fun i : Fin 5 => (s.getD i 0, (π i).val)) (List.ofFn fun i : Fin 5 => (s.getD i 0, (π i).val)) [] 0 rfl (by
      intro p hp q hq
      obtain ⟨i, rfl⟩ := (List.mem_ofFn' _ _).1 hp
      obtain ⟨j, rfl⟩ := (List.mem_ofFn' _ _).1 hq
      have := hπ j i
      simp only
      rw [← not_le, ← not_le, this, Fin.le_def])
    rw [List.map_ofFn, List.map_ofFn] at h
    rw [es, leh, leh]
    exact h
  have e2 : listCell s 0 = listCell (permList π) 0 := by
    refine kpermLoop_congr 4 _ _ 0 ?_
    intro a ha b hb
    have := hπ ⟨a, by omega⟩ ⟨b, by omega⟩
    have hp : ∀ (a : Nat) (h : a < 5), (permList π).getD (0 + a) 0 = (π ⟨a, h⟩).val := by
      intro a h
      rw [Nat.zero_add, permList_getD]
    simp only
    rw [hp a (by omega), hp b (by omega), Nat.zero_add, Nat.zero_add, Int.ofNat_le, Int.ofNat_le, this, Fin.le_def]
  rw [e1, e2]
  exact hm

end Dh
