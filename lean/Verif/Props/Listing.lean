import Verif.Model.Listing
import Verif.Props.Select
/-
C107: the numbers and names that `dieharder -l`-style listings of generators show are the ones that -g accepts.
-/
namespace Dh
namespace Spec

/-- The three decimal digits of a number below 1000. -/
def threeDigits (i : Nat) : List Char := [i / 100, i / 10 % 10, i % 10].map fun d => Char.ofNat (48 + d)

/-- A name, padded to twenty columns. -/
def twenty (nm : List Char) : List Char := nm ++ List.replicate (20 - nm.length) ' '

/-- One generator in the listing: number, name, and a bar. -/
def listCell (p : Nat × List Char) : List Char := threeDigits p.1 ++ ' ' :: (twenty p.2 ++ ['|'])

/-- An empty place. -/
def emptyCell : List Char := List.replicate 24 ' ' ++ ['|']

/-- The rows of a block, three generators in each, the last row filled up. -/
def listRows : List (Nat × List Char) → List (List Char)
  | [] => []
  | [a] => ["|   ".toList ++ (listCell a ++ (emptyCell ++ emptyCell))]
  | [a, b] => ["|   ".toList ++ (listCell a ++ (listCell b ++ emptyCell))]
  | a :: b :: c :: r => ("|   ".toList ++ (listCell a ++ (listCell b ++ listCell c))) :: listRows r

/-- Consecutive numbers from `i` on for the names. -/
def numbered (i : Nat) : List (List Char) → List (Nat × List Char)
  | [] => []
  | nm :: r => (i, nm) :: numbered (i + 1) r

/-- The generators by block: those of the GSL from 0, of dieharder from 200, of R from 400, the devices that can be opened from 500,
and none of the user. -/
def rngBlocks (gsl : List (List Char)) (r u a : Bool) : List (List (Nat × List Char)) :=
  [numbered 0 gsl,
   numbered 200 (["stdin_input_raw", "file_input_raw", "file_input", "ca", "uvag", "AES_OFB", "Threefish_OFB", "XOR (supergenerator)",
     "kiss", "superkiss"].map String.toList),
   numbered 400 (["R_wichmann_hill", "R_marsaglia_multic.", "R_super_duper", "R_mersenne_twister", "R_knuth_taocp",
     "R_knuth_taocp2"].map String.toList),
   numbered 500 ((([(r, "/dev/random"), (u, "/dev/urandom"), (a, "/dev/arandom")].filter fun p => p.1).map fun p => p.2).map String.toList),
   []]

/-- A line `#====...====#`. -/
def ruleLine : List Char := '#' :: (List.replicate 77 '=' ++ ['#'])

/-- The lines of the listing. -/
def listLines (version : List Char) (gsl : List (List Char)) (r u a : Bool) : List (List Char) :=
  [ruleLine,
   '#' :: (List.replicate ((30 - version.length) / 2) ' ' ++ ("dieharder version ".toList ++ (version ++
     (" Copyright 2003 Robert G. Brown".toList ++ (List.replicate (28 - version.length - (30 - version.length) / 2) ' ' ++ ['#']))))),
   ruleLine,
   "#    Id Test Name           | Id Test Name           | Id Test Name           #".toList,
   ruleLine] ++ (rngBlocks gsl r u a).flatMap fun b => listRows b ++ [ruleLine]

/-- A text made of lines. -/
def linesText (l : List (List Char)) : List Char := l.flatMap fun s => s ++ ['\n']

end Spec
open Spec

/-! ### The table -/

theorem wr_at {α : Type} (t : List α) (i : Nat) (x : α) (h : i < t.length) : wr t i x = .ok (t.set i x) := by rw [wr, if_pos h]

theorem copyRngs_eq : ∀ (l : List (List Char)) (t : List (Option (List Char))) (i : Nat), i + l.length ≤ t.length →
    ∃ t', copyRngs l t i = .ok (t', i + l.length) ∧ t'.length = t.length ∧
      ∀ k, t'[k]? = if i ≤ k ∧ k < i + l.length then some l[k - i]? else t[k]?
  | [], t, i, _ => ⟨t, rfl, rfl, fun k => by rw [if_neg]; simp only [List.length_nil]; omega⟩
  | nm :: r, t, i, h => by
    simp only [List.length_cons] at h
    obtain ⟨t', h1, h2, h3⟩ := copyRngs_eq r (t.set i (some nm)) (i + 1) (by rw [List.length_set]; omega)
    refine ⟨t', ?_, by rw [h2, List.length_set], fun k => ?_⟩
    · rw [copyRngs, wr_at _ _ _ (by omega), Res.bind_ok, h1, List.length_cons]
      congr 2
      omega
    · rw [h3 k, List.length_cons, List.getElem?_set]
      by_cases hk : k = i
      · subst hk
        rw [if_neg (by omega), if_pos rfl, if_pos (by omega), if_pos (by omega), Nat.sub_self]
        rfl
      · rw [if_neg (show ¬ i = k by omega)]
        by_cases hk2 : i + 1 ≤ k ∧ k < i + 1 + r.length
        · rw [if_pos hk2, if_pos (by omega), show k - i = k - (i + 1) + 1 by omega, List.getElem?_cons_succ]
        · rw [if_neg hk2, if_neg (by omega)]

theorem addRngs_eq (l : List (List Char)) : ∀ (t : List (Option (List Char))) (i : Nat), t.length = 1000 → i + l.length ≤ 1000 →
    addRngs l t i = copyRngs l t i := by
  induction l with
  | nil => exact fun _ _ _ _ => rfl
  | cons nm r ih =>
    intro t i ht h
    simp only [List.length_cons] at h
    rw [addRngs, if_neg (by omega), copyRngs, wr_at _ _ _ (by omega), Res.bind_ok, Res.bind_ok, ih _ _ (by rw [List.length_set, ht]) (by omega)]

theorem hwNames_eq (r u a : Bool) :
    hwNames r u a = (([(r, "/dev/random"), (u, "/dev/urandom"), (a, "/dev/arandom")].filter fun p => p.1).map fun p => p.2).map String.toList := by
  cases r <;> cases u <;> cases a <;> rfl

/-- What the table holds at number `k`. -/
def rngAt (gsl : List (List Char)) (r u a : Bool) (k : Nat) : Option (List Char) :=
  if k < 200 then gsl[k]? else if k < 400 then dhNames[k - 200]? else if k < 500 then rNames[k - 400]? else (hwNames r u a)[k - 500]?

theorem hwNames_length (r u a : Bool) : (hwNames r u a).length ≤ 3 := by
  cases r <;> cases u <;> cases a <;> decide

theorem rngTypes_eq (gsl : List (List Char)) (r u a : Bool) (hg : gsl.length ≤ 200) : ∃ t, rngTypes gsl r u a =
      .ok (t, gsl.length + 16 + (hwNames r u a).length) ∧ t.length = 1000 ∧ ∀ k, k < 1000 → t[k]? = some (rngAt gsl r u a k) := by
  have hl := hwNames_length r u a
  have hd : dhNames.length = 10 := rfl
  have hr : rNames.length = 6 := rfl
  obtain ⟨t1, a1, b1, c1⟩ := copyRngs_eq gsl (List.replicate 1000 none) 0 (by rw [List.length_replicate]; omega)
  rw [List.length_replicate] at b1
  obtain ⟨t2, a2, b2, c2⟩ := copyRngs_eq dhNames t1 200 (by omega)
  obtain ⟨t3, a3, b3, c3⟩ := copyRngs_eq rNames t2 400 (by omega)
  obtain ⟨t4, a4, b4, c4⟩ := copyRngs_eq (hwNames r u a) t3 500 (by omega)
  refine ⟨t4, ?_, by omega, fun k hk => ?_⟩
  · simp only [rngTypes, a1, Res.bind_ok, addRngs_eq dhNames t1 200 b1 (by omega), a2, addRngs_eq rNames t2 400 (by omega) (by omega), a3,
      addRngs_eq (hwNames r u a) t3 500 (by omega) (by omega), a4, hd, hr, Nat.zero_add, Nat.add_assoc, Nat.reduceAdd]
  · rw [c4, c3, c2, c1, hd, hr, rngAt, List.getElem?_replicate, if_pos hk]
    have none_of : ∀ {l : List (List Char)} {m : Nat}, l.length ≤ m → l[m]? = none := fun h => List.getElem?_eq_none h
    rcases Nat.lt_or_ge k 200 with h | h
    · rw [if_neg (by omega), if_neg (by omega), if_neg (by omega), if_pos h]
      split
      · rfl
      · rw [none_of (by omega)]
    · rw [if_neg (show ¬ k < 200 by omega)]
      rcases Nat.lt_or_ge k 400 with h2 | h2
      · rw [if_neg (by omega), if_neg (by omega), if_pos h2]
        split
        · rfl
        · rw [if_neg (by omega), none_of (by rw [hd]; omega)]
      · rw [if_neg (show ¬ k < 400 by omega)]
        rcases Nat.lt_or_ge k 500 with h3 | h3
        · rw [if_neg (by omega), if_pos h3]
          split
          · rfl
          · rw [if_neg (by omega), if_neg (by omega), none_of (by rw [hr]; omega)]
        · rw [if_neg (show ¬ k < 500 by omega)]
          split
          · rfl
          · rw [if_neg (by omega), if_neg (by omega), if_neg (by omega), none_of (by omega)]

/-! ### The listing -/

theorem fmtNum_three : ∀ i, i < 1000 → fmtNum '0' i = threeDigits i := by decide +kernel

theorem fmtNum_three' : ∀ i, i < 1000 → 100 ≤ i → fmtNum ' ' i = threeDigits i := by decide +kernel

theorem fmtNum_pad {pad : Char} {i : Nat} (h : i < 1000) (hp : pad = '0' ∨ (pad = ' ' ∧ 100 ≤ i)) : fmtNum pad i = threeDigits i := by
  rcases hp with rfl | ⟨rfl, h2⟩
  · exact fmtNum_three i h
  · exact fmtNum_three' i h h2

/-- The text of a block after the cells before `j`. -/
def loopText (base : Nat) : List (List Char) → (i j : Nat) → List Char
  | [], _, _ => []
  | nm :: r, i, j => (if j % 3 = 0 then "|   ".toList else []) ++ (listCell (i, nm) ++
      ((if (j + 1) % 3 = 0 ∧ i > base then ['\n'] else []) ++ loopText base r (i + 1) (j + 1)))

theorem listLoop_eq (t : List (Option (List Char))) (pad : Char) (base : Nat) : ∀ (l : List (List Char)) (fuel i j : Nat),
    i + l.length < 1000 → l.length < fuel → (pad = '0' ∨ (pad = ' ' ∧ 100 ≤ i)) → (∀ k, k ≤ l.length → t[i + k]? = some l[k]?) →
    listLoop t pad base fuel i j = .ok (loopText base l i j, j + l.length)
  | [], fuel + 1, i, j, _, _, _, h => by
    have := h 0 (by simp)
    rw [Nat.add_zero] at this
    rw [listLoop, rd, this]
    rfl
  | nm :: r, fuel + 1, i, j, h1, h2, hp, h => by
    have h0 := h 0 (by simp)
    rw [Nat.add_zero] at h0
    simp only [List.length_cons] at h1 h2
    have ih := listLoop_eq t pad base r fuel (i + 1) (j + 1) (by omega) (by omega) (hp.imp id fun h => ⟨h.1, by omega⟩) fun k hk => by
      rw [show i + 1 + k = i + (k + 1) by omega, h (k + 1) (by rw [List.length_cons]; omega), List.getElem?_cons_succ]
    rw [listLoop, rd, h0]
    simp only [Res.bind_ok, List.getElem?_cons_zero, ih, loopText, fmtNum_pad (show i < 1000 by omega) hp, listCell, fmtName, twenty,
      List.length_cons, List.append_assoc, List.cons_append, List.nil_append]
    congr 2
    omega
  | l, 0, _, _, _, h, _, _ => absurd h (by omega)

theorem rowsText (base : Nat) : ∀ (n : Nat) (l : List (List Char)) (i j : Nat), l.length ≤ n → j % 3 = 0 → base ≤ i →
    loopText base l i j ++ ((if (j + l.length) % 3 = 1 then List.replicate 24 ' ' ++ '|' :: (List.replicate 24 ' ' ++ ['|', '\n']) else []) ++
      (if (j + l.length) % 3 = 2 then List.replicate 24 ' ' ++ ['|', '\n'] else [])) = linesText (listRows (numbered i l))
  | 0, [], i, j, _, hj, _ => by simp [loopText, numbered, listRows, linesText, hj]
  | n + 1, [], i, j, _, hj, _ => by simp [loopText, numbered, listRows, linesText, hj]
  | n + 1, [a], i, j, _, hj, _ => by
    have e1 : (j + 1) % 3 = 1 := by omega
    simp [loopText, numbered, listRows, linesText, hj, e1, emptyCell]
  | n + 1, [a, b], i, j, _, hj, _ => by
    have e1 : (j + 1) % 3 = 1 := by omega
    have e2 : (j + 2) % 3 = 2 := by omega
    simp [loopText, numbered, listRows, linesText, hj, e1, e2, emptyCell]
  | n + 1, a :: b :: c :: r, i, j, hn, hj, hb => by
    have e1 : (j + 1) % 3 = 1 := by omega
    have e3 : (j + 1 + 1) % 3 = 2 := by omega
    have e4 : (j + 1 + 1 + 1) % 3 = 0 := by omega
    have ih := rowsText base n r (i + 1 + 1 + 1) (j + 1 + 1 + 1) (by simp only [List.length_cons] at hn; omega) e4 (by omega)
    rw [numbered, numbered, numbered, listRows, linesText, List.flatMap_cons, ← linesText, ← ih]
    have h1 : base < i + 1 + 1 := by omega
    have e5 : j + (a :: b :: c :: r).length = j + 1 + 1 + 1 + r.length := by simp only [List.length_cons]; omega
    rw [e5]
    simp [loopText, hj, e1, e3, e4, h1]

theorem linesText_append (a b : List (List Char)) : linesText (a ++ b) = linesText a ++ linesText b := by
  rw [linesText, List.flatMap_append, ← linesText, ← linesText]

theorem ruleText : linesText [ruleLine] = listRule := by decide +kernel

theorem listBlock_eq (t : List (Option (List Char))) (pad : Char) (base : Nat) (l : List (List Char)) (h1 : base + l.length < 1000)
    (hp : pad = '0' ∨ (pad = ' ' ∧ 100 ≤ base)) (h : ∀ k, k ≤ l.length → t[base + k]? = some l[k]?) :
    listBlock t pad base = .ok (linesText (listRows (numbered base l) ++ [ruleLine])) := by
  rw [listBlock, listLoop_eq t pad base l 1001 base 0 h1 (by omega) hp h, Res.bind_ok, linesText_append, ruleText,
    ← rowsText base l.length l base 0 (le_refl _) rfl (le_refl _)]
  simp only [List.append_assoc]

theorem header_eq (version : List Char) (hv : version.length ≤ 27) : dhHeader version = linesText [ruleLine,
   '#' :: (List.replicate ((30 - version.length) / 2) ' ' ++ ("dieharder version ".toList ++ (version ++
     (" Copyright 2003 Robert G. Brown".toList ++ (List.replicate (28 - version.length - (30 - version.length) / 2) ' ' ++ ['#']))))),
   ruleLine] := by
  obtain ⟨v, hv2⟩ : ∃ v, version.length = v := ⟨_, rfl⟩
  have e1 : (Int.tdiv (80 - 48 - (v : Int) - 2) 2).toNat = (30 - v) / 2 := by
    rw [hv2] at hv
    have : ∀ v : Nat, v ≤ 27 → (Int.tdiv (80 - 48 - (v : Int) - 2) 2).toNat = (30 - v) / 2 := by decide +kernel
    exact this v hv
  have e2 : (80 - 52 - (v : Int) - Int.tdiv (80 - 48 - (v : Int) - 2) 2).toNat = 28 - v - (30 - v) / 2 := by
    rw [hv2] at hv
    have : ∀ v : Nat, v ≤ 27 → (80 - 52 - (v : Int) - Int.tdiv (80 - 48 - (v : Int) - 2) 2).toNat = 28 - v - (30 - v) / 2 := by decide +kernel
    exact this v hv
  simp only [dhHeader, hv2, e1, e2, ← ruleText]
  simp [linesText]

theorem head_eq : listHead = linesText ["#    Id Test Name           | Id Test Name           | Id Test Name           #".toList, ruleLine] := by
  decide +kernel

/-- **C107.** The listing of the generators is the table of the specification, whatever generators the GSL brings and whichever devices
can be opened. -/
theorem C107_listing (version : List Char) (gsl : List (List Char)) (r u a : Bool) (hv : version.length ≤ 27) (hg : gsl.length < 200) :
    listRngs version gsl r u a = .ok (linesText (listLines version gsl r u a)) := by
  obtain ⟨t, h1, h2, h3⟩ := rngTypes_eq gsl r u a (by omega)
  have hl := hwNames_length r u a
  have hd : dhNames.length = 10 := rfl
  have hr : rNames.length = 6 := rfl
  rw [listRngs, h1, Res.bind_ok]
  have b0 := listBlock_eq t '0' 0 gsl (by omega) (Or.inl rfl) fun k hk => by
    rw [Nat.zero_add, h3 k (by omega), rngAt, if_pos (by omega)]
  have b2 := listBlock_eq t '0' 200 dhNames (by omega) (Or.inl rfl) fun k hk => by
    rw [h3 _ (by omega), rngAt, if_neg (by omega), if_pos (by omega), Nat.add_sub_cancel_left]
  have b4 := listBlock_eq t ' ' 400 rNames (by omega) (Or.inr ⟨rfl, by omega⟩) fun k hk => by
    rw [h3 _ (by omega), rngAt, if_neg (by omega), if_neg (by omega), if_pos (by omega), Nat.add_sub_cancel_left]
  have b5 := listBlock_eq t ' ' 500 (hwNames r u a) (by omega) (Or.inr ⟨rfl, by omega⟩) fun k hk => by
    rw [h3 _ (by omega), rngAt, if_neg (by omega), if_neg (by omega), if_neg (by omega), Nat.add_sub_cancel_left]
  have b6 := listBlock_eq t ' ' 600 [] (by decide) (Or.inr ⟨rfl, by omega⟩) fun k hk => by
    have : k = 0 := by simpa using hk
    subst this
    rw [h3 _ (by omega), rngAt, if_neg (by omega), if_neg (by omega), if_neg (by omega), List.getElem?_eq_none (by omega)]
    rfl
  simp only [addUiRngs, b0, b2, b4, b5, b6, Res.bind_ok, ne_eq, Nat.one_ne_zero, not_false_eq_true, if_true, header_eq version hv, head_eq]
  rw [← linesText_append, ← linesText_append, ← linesText_append, ← linesText_append, ← linesText_append, ← linesText_append, listLines,
    rngBlocks, ← hwNames_eq]
  simp only [List.flatMap_cons, List.flatMap_nil, List.append_nil, List.cons_append, List.nil_append, numbered, listRows, List.append_assoc]
  rfl

/-! ### Its shape -/

theorem listCell_length {p : Nat × List Char} (h : p.2.length ≤ 20) : (listCell p).length = 25 := by
  simp only [listCell, threeDigits, twenty, List.map_cons, List.map_nil, List.cons_append, List.nil_append, List.length_cons,
    List.length_append, List.length_replicate, List.length_nil]
  omega

theorem listRows_length : ∀ (l : List (Nat × List Char)), (∀ p ∈ l, p.2.length ≤ 20) → ∀ s ∈ listRows l, s.length = 79
  | [], _, s, hs => by simp [listRows] at hs
  | [a], h, s, hs => by
    have ha := listCell_length (h a (by simp))
    rw [listRows, List.mem_singleton] at hs
    rw [hs]
    simp [ha, emptyCell]
  | [a, b], h, s, hs => by
    have ha := listCell_length (h a (by simp))
    have hb := listCell_length (h b (by simp))
    rw [listRows, List.mem_singleton] at hs
    rw [hs]
    simp [ha, hb, emptyCell]
  | a :: b :: c :: r, h, s, hs => by
    have ha := listCell_length (h a (by simp))
    have hb := listCell_length (h b (by simp))
    have hc := listCell_length (h c (by simp))
    rw [listRows, List.mem_cons] at hs
    rcases hs with rfl | hs
    · simp [ha, hb, hc]
    · exact listRows_length r (fun p hp => h p (by simp [hp])) s hs

theorem mem_numbered {i : Nat} : ∀ {l : List (List Char)} {p : Nat × List Char}, p ∈ numbered i l ↔ i ≤ p.1 ∧ l[p.1 - i]? = some p.2 := by
  intro l
  induction l generalizing i with
  | nil => simp [numbered]
  | cons nm r ih =>
    intro p
    rw [numbered, List.mem_cons, ih]
    obtain ⟨k, x⟩ := p
    simp only [Prod.mk.injEq]
    constructor
    · rintro (⟨rfl, rfl⟩ | ⟨h1, h2⟩)
      · simp
      · refine ⟨by omega, ?_⟩
        rw [show k - i = k - (i + 1) + 1 by omega, List.getElem?_cons_succ, h2]
    · rintro ⟨h1, h2⟩
      rcases Nat.eq_or_lt_of_le h1 with rfl | h3
      · rw [Nat.sub_self, List.getElem?_cons_zero, Option.some.injEq] at h2
        exact Or.inl ⟨rfl, h2.symm⟩
      · rw [show k - i = k - (i + 1) + 1 by omega, List.getElem?_cons_succ] at h2
        exact Or.inr ⟨h3, h2⟩

theorem shown_iff (gsl : List (List Char)) (r u a : Bool) (hg : gsl.length ≤ 200) (i : Nat) (nm : List Char) :
    (∃ b ∈ rngBlocks gsl r u a, (i, nm) ∈ b) ↔ i < 1000 ∧ rngAt gsl r u a i = some nm := by
  have hl := hwNames_length r u a
  have hd : dhNames.length = 10 := rfl
  have hr : rNames.length = 6 := rfl
  rw [rngBlocks, ← hwNames_eq]
  have lt_of : ∀ {l : List (List Char)} {m : Nat}, l[m]? = some nm → m < l.length := fun h => (List.getElem?_eq_some_iff.1 h).1
  have hx : (∃ b ∈ [numbered 0 gsl, numbered 200 dhNames, numbered 400 rNames, numbered 500 (hwNames r u a), []], (i, nm) ∈ b) ↔
      i < 1000 ∧ rngAt gsl r u a i = some nm := by
    simp only [List.mem_cons, List.not_mem_nil, or_false, exists_eq_or_imp, exists_eq_left, mem_numbered, Nat.sub_zero, Nat.zero_le, true_and]
    rw [rngAt]
    constructor
    · rintro (h | ⟨h1, h2⟩ | ⟨h1, h2⟩ | ⟨h1, h2⟩)
      · have := lt_of h
        exact ⟨by omega, by rw [if_pos (by omega), h]⟩
      · have := lt_of h2
        exact ⟨by omega, by rw [if_neg (by omega), if_pos (by omega), h2]⟩
      · have := lt_of h2
        exact ⟨by omega, by rw [if_neg (by omega), if_neg (by omega), if_pos (by omega), h2]⟩
      · have := lt_of h2
        exact ⟨by omega, by rw [if_neg (by omega), if_neg (by omega), if_neg (by omega), h2]⟩
    · rintro ⟨h1, h2⟩
      split at h2
      · exact Or.inl h2
      · split at h2
        · exact Or.inr (Or.inl ⟨by omega, h2⟩)
        · split at h2
          · exact Or.inr (Or.inr (Or.inl ⟨by omega, h2⟩))
          · exact Or.inr (Or.inr (Or.inr ⟨by omega, h2⟩))
  exact hx

/-- **C107.** If the names of the GSL have at most twenty characters, the listing is a rectangle of 79 columns. -/
theorem C107_width (version : List Char) (gsl : List (List Char)) (r u a : Bool) (hv : version.length ≤ 27)
    (hn : ∀ nm ∈ gsl, nm.length ≤ 20) : ∀ s ∈ listLines version gsl r u a, s.length = 79 := by
  intro s hs
  rw [listLines] at hs
  simp only [List.cons_append, List.nil_append, List.mem_cons, List.mem_flatMap, List.mem_append, List.not_mem_nil, or_false] at hs
  have hrule : ruleLine.length = 79 := rfl
  rcases hs with rfl | rfl | rfl | rfl | rfl | ⟨b, hb, hs | rfl⟩
  · exact hrule
  · simp only [List.length_cons, List.length_append, List.length_replicate, List.length_nil]
    rw [show "dieharder version ".toList.length = 18 from rfl, show " Copyright 2003 Robert G. Brown".toList.length = 31 from rfl]
    omega
  · exact hrule
  · rfl
  · exact hrule
  · refine listRows_length b (fun p hp => ?_) s hs
    rw [rngBlocks] at hb
    simp only [List.mem_cons, List.not_mem_nil, or_false] at hb
    have key : ∀ (i : Nat) (l : List (List Char)), (∀ nm ∈ l, nm.length ≤ 20) → p ∈ numbered i l → p.2.length ≤ 20 := fun i l h hp =>
      h _ (List.mem_of_getElem? (mem_numbered.1 hp).2)
    rcases hb with rfl | rfl | rfl | rfl | rfl
    · exact key _ _ hn hp
    · exact key _ _ (by decide +kernel) hp
    · exact key _ _ (by decide +kernel) hp
    · refine key _ _ ?_ hp
      cases r <;> cases u <;> cases a <;> decide +kernel
    · simp at hp
  · exact hrule

/-! ### The listing and the option -g -/

theorem three_number {i : Nat} (h : i < 1000) : IsNumber (threeDigits i) (BitVec.ofNat 32 i) := by
  have hd : ∀ i, i < 1000 → (∀ c ∈ threeDigits i, c.isDigit = true) ∧
      Nat.ofDigits 10 ((threeDigits i).map fun c => c.toNat - 48).reverse = i := by decide +kernel
  obtain ⟨h1, h2⟩ := hd i h
  refine ⟨i, [], ⟨[], [], threeDigits i, by simp, by simp, by simp [threeDigits], h1, by simp, Or.inl ⟨Or.inl rfl, by rw [h2]⟩⟩,
    by simp [threeDigits], ?_⟩
  rw [if_neg (by omega), if_neg (by omega)]
  rfl

theorem number_unique {a : List Char} {x y : UInt} (h : IsNumber a x) (h2 : IsNumber a y) : x = y := by
  have := kind_number h
  rw [kind_number h2, Option.some.injEq] at this
  exact this.symm

theorem not_both {a : List Char} {x : UInt} (h : IsNumber a x) : ¬ IsName a := fun h2 => by
  have := kind_number h
  rw [kind_name h2] at this
  exact absurd this (by simp)

/-- A text that begins with a letter or a slash is a name. -/
theorem name_of_head {c : Char} {l : List Char} (h : cSpace c = false ∧ c ≠ '-' ∧ c ≠ '+' ∧ c.isDigit = false) : IsName (c :: l) := by
  rw [← kind_none_iff, argKind]
  have e : strtol (c :: l) = (0, c :: l) := by
    have h1 : (c :: l).dropWhile cSpace = c :: l := by rw [List.dropWhile_cons, if_neg (by rw [h.1]; simp)]
    have h2 : cSign (c :: l) = (false, c :: l) := by
      unfold cSign
      split
      · rename_i heq; cases heq; exact absurd rfl h.2.1
      · rename_i heq; cases heq; exact absurd rfl h.2.2.1
      · rfl
    simp only [strtol, h1, h2, List.takeWhile_cons, h.2.2.2, Bool.false_eq_true, if_false, if_true]
  rw [e, if_pos (take_one_eq.2 rfl)]

/-- The names of the program itself. -/
def ownNames (r u a : Bool) : List (List Char) := dhNames ++ (rNames ++ hwNames r u a)

theorem own_name (r u a : Bool) : ∀ nm ∈ ownNames r u a, nm ≠ [] ∧ IsName nm := by
  intro nm h
  have : ∃ c l, nm = c :: l ∧ (cSpace c = false ∧ c ≠ '-' ∧ c ≠ '+' ∧ c.isDigit = false) := by
    have hall : ∀ nm ∈ ownNames r u a, (match nm with
      | [] => false
      | c :: _ => decide (cSpace c = false ∧ c ≠ '-' ∧ c ≠ '+' ∧ c.isDigit = false)) = true := by
      cases r <;> cases u <;> cases a <;> decide +kernel
    have h1 := hall nm h
    cases nm with
    | nil => simp at h1
    | cons c l => exact ⟨c, l, rfl, of_decide_eq_true h1⟩
  obtain ⟨c, l, rfl, hc⟩ := this
  exact ⟨by simp, name_of_head hc⟩

/-- Entry `i` of the table has a place in the sequence of all names. -/
theorem rngAt_rank {gsl : List (List Char)} {r u a : Bool} {i : Nat} {nm : List Char} (h : rngAt gsl r u a i = some nm) :
    ∃ k, (gsl ++ ownNames r u a)[k]? = some nm ∧ (k = i ∧ i < gsl.length ∨ 200 ≤ i ∧ i < 210 ∧ k = gsl.length + (i - 200) ∨
      400 ≤ i ∧ i < 406 ∧ k = gsl.length + 10 + (i - 400) ∨ 500 ≤ i ∧ k = gsl.length + 16 + (i - 500)) := by
  have hd : dhNames.length = 10 := rfl
  have hr : rNames.length = 6 := rfl
  have lt_of : ∀ {l : List (List Char)} {m : Nat}, l[m]? = some nm → m < l.length := fun h => (List.getElem?_eq_some_iff.1 h).1
  rw [rngAt] at h
  split at h
  · have := lt_of h
    exact ⟨i, by rw [List.getElem?_append_left (by omega), h], Or.inl ⟨rfl, by omega⟩⟩
  · split at h
    · have := lt_of h
      refine ⟨gsl.length + (i - 200), ?_, Or.inr (Or.inl ⟨by omega, by omega, rfl⟩)⟩
      rw [List.getElem?_append_right (by omega), ownNames, List.getElem?_append_left (by omega), Nat.add_sub_cancel_left, h]
    · split at h
      · have := lt_of h
        refine ⟨gsl.length + 10 + (i - 400), ?_, Or.inr (Or.inr (Or.inl ⟨by omega, by omega, rfl⟩))⟩
        rw [List.getElem?_append_right (by omega), ownNames, List.getElem?_append_right (by omega), List.getElem?_append_left (by omega),
          show gsl.length + 10 + (i - 400) - gsl.length - dhNames.length = i - 400 by omega, h]
      · have := lt_of h
        refine ⟨gsl.length + 16 + (i - 500), ?_, Or.inr (Or.inr (Or.inr ⟨by omega, rfl⟩))⟩
        rw [List.getElem?_append_right (by omega), ownNames, List.getElem?_append_right (by omega), List.getElem?_append_right (by omega),
          show gsl.length + 16 + (i - 500) - gsl.length - dhNames.length - rNames.length = i - 500 by omega, h]

/-- Distinct numbers have names that differ in the first twenty characters. -/
theorem rngAt_inj {gsl : List (List Char)} {r u a : Bool} (hg : gsl.length ≤ 200) (hn : ((gsl ++ ownNames r u a).map (List.take 20)).Nodup)
    {i j : Nat} {x y : List Char} (hi : rngAt gsl r u a i = some x) (hj : rngAt gsl r u a j = some y) (h : x.take 20 = y.take 20) : i = j := by
  obtain ⟨k, h1, h2⟩ := rngAt_rank hi
  obtain ⟨l, h3, h4⟩ := rngAt_rank hj
  have hk : k < ((gsl ++ ownNames r u a).map (List.take 20)).length := by
    rw [List.length_map]; exact (List.getElem?_eq_some_iff.1 h1).1
  have : k = l := by
    refine (List.getElem?_inj hk hn).1 ?_
    rw [List.getElem?_map, List.getElem?_map, h1, h3, Option.map_some, Option.map_some, h]
  omega

theorem gArgs_cons (x : List Char) (opts : List SelOpt) : gArgs (.g x :: opts) = x :: gArgs opts := rfl
theorem dArgs_cons (x : List Char) (opts : List SelOpt) : dArgs (.g x :: opts) = dArgs opts := rfl
theorem sArgs_cons (x : List Char) (opts : List SelOpt) : sArgs (.g x :: opts) = sArgs opts := rfl

theorem hasFile_cons (x : List Char) (opts : List SelOpt) : HasFile (.g x :: opts) ↔ HasFile opts := by
  simp [HasFile]

theorem testChoice_cons (tests : List (Option (List Char))) (x : List Char) (opts : List SelOpt) (t : Nat) :
    TestChoice tests (.g x :: opts) t ↔ TestChoice tests opts t := by
  rw [TestChoice, TestChoice, dArgs_cons]

/-- **C107.** Every number and every name of the listing can be given to -g, and selects the generator listed: the names of the GSL are
arbitrary, as long as all names differ in their first twenty characters and none looks like a number. -/
theorem C107_accepted (gsl : List (List Char)) (r u a : Bool) (hg : gsl.length ≤ 200) (hn : ((gsl ++ ownNames r u a).map (List.take 20)).Nodup)
    (hname : ∀ nm ∈ gsl, nm ≠ [] ∧ IsName nm) : ∃ rngs n, rngTypes gsl r u a = .ok (rngs, n) ∧
    ∀ b ∈ rngBlocks gsl r u a, ∀ i nm, (i, nm) ∈ b → ∀ tests : List (Option (List Char)), tests.length = 1000 → ∀ opts,
      (gArgs opts).length < 100 → (sArgs opts).length ≤ 100 → ("file_input".toList <+: nm → HasFile opts) →
      ∀ arg, arg = threeDigits i ∨ arg = nm → ∀ g t, selectRun rngs tests (.g arg :: opts) = .ok (g, t) ↔ g = i ∧ TestChoice tests opts t := by
  obtain ⟨rngs, h1, h2, h3⟩ := rngTypes_eq gsl r u a hg
  refine ⟨rngs, _, h1, fun b hb i nm hm tests ht opts hgo hs hf arg harg g t => ?_⟩
  obtain ⟨hi, hat⟩ := (shown_iff gsl r u a hg i nm).1 ⟨b, hb, hm⟩
  have hri : rngs[i]? = some (some nm) := by rw [h3 i hi, hat]
  have at_of : ∀ {j x}, rngs[j]? = some (some x) → rngAt gsl r u a j = some x := fun {j x} hj => by
    have hjl : j < 1000 := by rw [← h2]; exact (List.getElem?_eq_some_iff.1 hj).1
    rw [h3 j hjl, Option.some.injEq] at hj
    exact hj
  have hnm : nm ≠ [] ∧ IsName nm := by
    obtain ⟨k, hk, -⟩ := rngAt_rank hat
    rcases List.mem_append.1 (List.mem_of_getElem? hk) with h | h
    · exact hname nm h
    · exact own_name r u a nm h
  rw [C91_selected rngs tests h2 ht (.g arg :: opts) (by rw [gArgs_cons, List.length_cons]; omega) (by rw [sArgs_cons]; exact hs), testChoice_cons]
  refine and_congr_left fun _ => ?_
  rw [RngChoice, gArgs_cons, hasFile_cons]
  simp only [List.head?_cons, Option.some.injEq, exists_eq_left', RngNumber, gArgs_cons, reduceCtorEq, false_or]
  rcases harg with rfl | rfl
  · have h3d := three_number hi
    constructor
    · rintro ⟨⟨-, hc, -⟩ | ⟨x, hx | ⟨hx, -⟩, hgx, -⟩, -⟩
      · exact absurd hc (not_both h3d)
      · rw [hgx, number_unique hx h3d, BitVec.toNat_ofNat, Nat.mod_eq_of_lt (by omega)]
      · simp [threeDigits] at hx
    · rintro rfl
      refine ⟨Or.inr ⟨_, Or.inl h3d, by rw [BitVec.toNat_ofNat, Nat.mod_eq_of_lt (by omega)], nm, hnm.1, hri⟩, ?_⟩
      rintro ⟨x, hx, hp⟩
      rw [hri, Option.some.injEq, Option.some.injEq] at hx
      exact hf (hx ▸ hp)
  · constructor
    · rintro ⟨⟨-, -, ⟨x, hx, hx2⟩, -⟩ | ⟨x, hx | ⟨hx, -⟩, -⟩, -⟩
      · exact rngAt_inj hg hn (at_of hx) hat hx2
      · exact absurd hnm.2 (not_both hx)
      · exact absurd hx hnm.1
    · rintro rfl
      refine ⟨Or.inl ⟨hnm.1, hnm.2, ⟨arg, hri, rfl⟩, fun j hj x hx hx2 => ?_⟩, ?_⟩
      · have := rngAt_inj hg hn (at_of hx) hat hx2
        omega
      · rintro ⟨x, hx, hp⟩
        rw [hri, Option.some.injEq, Option.some.injEq] at hx
        exact hf (hx ▸ hp)

/-- **C107.** A number below 1000 that is not in the listing is refused, and so is a name that agrees with none in twenty characters. -/
theorem C107_refused (gsl : List (List Char)) (r u a : Bool) (hg : gsl.length ≤ 200) : ∃ rngs n, rngTypes gsl r u a = .ok (rngs, n) ∧
    ∀ tests : List (Option (List Char)), tests.length = 1000 → ∀ opts, (gArgs opts).length < 100 → (sArgs opts).length ≤ 100 →
      (∀ i, i < 1000 → (∀ b ∈ rngBlocks gsl r u a, ∀ nm, (i, nm) ∉ b) → selectRun rngs tests (.g (threeDigits i) :: opts) = .exit) ∧
      ∀ x, x ≠ [] → IsName x → (∀ b ∈ rngBlocks gsl r u a, ∀ i nm, (i, nm) ∈ b → nm.take 20 ≠ x.take 20) →
        selectRun rngs tests (.g x :: opts) = .exit := by
  obtain ⟨rngs, h1, h2, h3⟩ := rngTypes_eq gsl r u a hg
  have shown_of : ∀ {j x}, rngs[j]? = some (some x) → ∃ b ∈ rngBlocks gsl r u a, (j, x) ∈ b := fun {j x} hj => by
    have hjl : j < 1000 := by rw [← h2]; exact (List.getElem?_eq_some_iff.1 hj).1
    rw [h3 j hjl, Option.some.injEq] at hj
    exact (shown_iff gsl r u a hg j x).2 ⟨hjl, hj⟩
  refine ⟨rngs, _, h1, fun tests ht opts hgo hs => ⟨fun i hi hno => ?_, fun x hx0 hxn hno => ?_⟩⟩
  · refine C91_refused rngs tests h2 ht _ (by rw [gArgs_cons, List.length_cons]; omega) (by rw [sArgs_cons]; exact hs) ?_
    rintro g t ⟨⟨h, -⟩, -⟩
    have h3d := three_number hi
    rw [gArgs_cons] at h
    simp only [List.head?_cons, Option.some.injEq, exists_eq_left', RngNumber, gArgs_cons, reduceCtorEq, false_or] at h
    rcases h with ⟨-, hc, -⟩ | ⟨x, hx | ⟨hx, -⟩, hgx, nm, -, hnm⟩
    · exact not_both h3d hc
    · rw [number_unique hx h3d, BitVec.toNat_ofNat, Nat.mod_eq_of_lt (by omega)] at hgx
      rw [hgx] at hnm
      obtain ⟨b, hb, hb2⟩ := shown_of hnm
      exact hno b hb nm hb2
    · simp [threeDigits] at hx
  · refine C91_refused rngs tests h2 ht _ (by rw [gArgs_cons, List.length_cons]; omega) (by rw [sArgs_cons]; exact hs) ?_
    rintro g t ⟨⟨h, -⟩, -⟩
    rw [gArgs_cons] at h
    simp only [List.head?_cons, Option.some.injEq, exists_eq_left', RngNumber, gArgs_cons, reduceCtorEq, false_or] at h
    rcases h with ⟨-, -, ⟨nm, hnm, he⟩, -⟩ | ⟨y, hy | ⟨hy, -⟩, -⟩
    · obtain ⟨b, hb, hb2⟩ := shown_of hnm
      exact hno b hb g nm hb2 he
    · exact not_both hy hxn
    · exact hx0 hy

/-- **C107.** The number of generators: `dh_num_rngs` is the number of entries in the listing, but one more after `add_ui_rngs`, which
counts a generator of the user although there is none. -/
theorem C107_counts (gsl : List (List Char)) (r u a : Bool) (hg : gsl.length ≤ 200) : ∃ rngs n, rngTypes gsl r u a = .ok (rngs, n) ∧
    n = (rngBlocks gsl r u a).flatten.length ∧ addUiRngs rngs n = (rngs, n + 1, 1) := by
  obtain ⟨rngs, h1, -, -⟩ := rngTypes_eq gsl r u a hg
  refine ⟨rngs, _, h1, ?_, rfl⟩
  have hl : ∀ (l : List (List Char)) (i : Nat), (numbered i l).length = l.length := by
    intro l
    induction l with
    | nil => exact fun _ => rfl
    | cons x r ih => intro i; rw [numbered, List.length_cons, ih, List.length_cons]
  rw [rngBlocks, ← hwNames_eq]
  simp only [List.flatten_cons, List.flatten_nil, List.append_nil, List.length_append, hl, List.length_map, List.length_cons, List.length_nil]
  omega

/-- Four generators of the GSL. -/
def exGsl : List (List Char) := ["borosh13", "cmrg", "coveyou", "fishman18"].map String.toList

-- the block of the GSL and that of the devices, as printed; `-g 404` and `-g cmrg` select
example : listRows (numbered 0 exGsl) =
    ["|   000 borosh13            |001 cmrg                |002 coveyou             |".toList,
     "|   003 fishman18           |                        |                        |".toList] ∧
    (∃ s, listRngs "3.31.1".toList exGsl true true false = .ok s ∧
      "|   500 /dev/random         |501 /dev/urandom        |                        |\n".toList <:+: s) ∧
    ∃ t n, rngTypes exGsl true true false = .ok (t, n) ∧
      selectRun t exTests [.g "404".toList, .d "7".toList] = .ok (404, 7) ∧ selectRun t exTests [.g "cmrg".toList, .d "7".toList] = .ok (1, 7) := by
  refine ⟨by decide +kernel, ⟨_, C107_listing _ _ _ _ _ (by decide) (by decide), by decide +kernel⟩, ?_⟩
  obtain ⟨t, n, h, h2⟩ := C107_accepted exGsl true true false (by decide) (by decide +kernel) (by
    intro nm hnm
    have : ∀ nm ∈ exGsl, ∃ c l, nm = c :: l ∧ (cSpace c = false ∧ c ≠ '-' ∧ c ≠ '+' ∧ c.isDigit = false) := by
      intro nm h
      simp only [exGsl, List.map_cons, List.map_nil, List.mem_cons, List.not_mem_nil, or_false] at h
      rcases h with rfl | rfl | rfl | rfl
      · exact ⟨'b', _, rfl, by decide⟩
      · exact ⟨'c', _, rfl, by decide⟩
      · exact ⟨'c', _, rfl, by decide⟩
      · exact ⟨'f', _, rfl, by decide⟩
    obtain ⟨c, l, rfl, hc⟩ := this nm hnm
    exact ⟨by simp, name_of_head hc⟩)
  have hd : TestChoice exTests [.d "7".toList] 7 := by
    have h7 : IsNumber "7".toList 7 := ⟨7, [], ⟨[], [], ['7'], rfl, by decide, by decide, by decide, by decide, Or.inl ⟨Or.inl rfl, by decide⟩⟩,
      by decide, by decide⟩
    refine ⟨7, [], Or.inl ⟨[], _, [], rfl, h7, by simp⟩, Or.inr ⟨fun b hb => ?_, rfl⟩, ?_⟩
    · obtain rfl : b = "7".toList := by simpa [dArgs] using hb
      exact not_both h7
    · rw [if_pos (by decide)]
      exact ⟨rfl, "runs".toList, by decide +kernel⟩
  refine ⟨t, n, h, ?_, ?_⟩
  · exact (h2 _ (by simp only [rngBlocks, List.mem_cons]; exact Or.inr (Or.inr (Or.inl rfl))) 404 "R_knuth_taocp".toList (by decide +kernel) exTests
      (by decide +kernel) [.d "7".toList] (by decide) (by decide) (fun hp => absurd hp (by decide)) _ (Or.inl (by decide +kernel)) 404 7).2 ⟨rfl, hd⟩
  · exact (h2 _ (by simp only [rngBlocks, List.mem_cons]; exact Or.inl rfl) 1 "cmrg".toList (by decide +kernel) exTests
      (by decide +kernel) [.d "7".toList] (by decide) (by decide) (fun hp => absurd hp (by decide)) _ (Or.inr rfl) 1 7).2 ⟨rfl, hd⟩

end Dh
