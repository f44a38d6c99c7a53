import Mathlib.Data.Nat.Digits.Lemmas
import Mathlib.Tactic.Ring
import Mathlib.Tactic.Linarith
import Mathlib.Tactic.NormNum
import Verif.Model.FileInput
import Verif.Props.Util
/-
Lines, numbers and headers of ASCII files.
-/
set_option linter.unusedSimpArgs false
namespace Dh

namespace Spec

/-- `ds` is the number `n` in decimal: most significant digit first, at least one digit. -/
def Decimal (ds : Str) (n : Nat) : Prop :=
  ∃ L : List Nat, L ≠ [] ∧ (∀ d ∈ L, d < 10) ∧ ds = L.map (fun d => BitVec.ofNat 8 (48 + d)) ∧ n = Nat.ofDigits 10 L.reverse

/-- A line of a header. -/
inductive HItem where
  | comment (t : Str)
  | type (c : BitVec 8)
  | count (ds : Str)
  | numbit (ds : Str)
  deriving DecidableEq

/-- Its text: a `#` and anything, or `type: c`, `count: n`, `numbit: n`. -/
def HItem.text : HItem → Str
  | comment t => 35 :: t ++ [10]
  | type c => [116, 121, 112, 101, 58, 32, c, 10]
  | count ds => [99, 111, 117, 110, 116, 58, 32] ++ ds ++ [10]
  | numbit ds => [110, 117, 109, 98, 105, 116, 58, 32] ++ ds ++ [10]

def HItem.isComment : HItem → Bool
  | comment _ => true
  | _ => false

/-- A header: the three settings once each, in any order, with comments (of at most 1021 characters) before them and between them. -/
structure Header (items : List HItem) (ty : BitVec 8) (count numbit : Nat) : Prop where
  comments : ∀ t, .comment t ∈ items → 10 ∉ t ∧ t.length ≤ 1021
  letter : ty ≠ 0 ∧ isDelim ty = false
  settings : ∃ dc db, Decimal dc count ∧ dc.length < 128 ∧ Decimal db numbit ∧ db.length < 128 ∧
    (items.filter fun i => !i.isComment).Perm [.type ty, .count dc, .numbit db]
  last : ∃ init i, items = init ++ [i] ∧ i.isComment = false

/-- A line of data: blanks or tabs, a decimal number, a newline. -/
def ValueLine (l : Str) (v : UInt) : Prop :=
  l.length ≤ 1023 ∧ ∃ sp ds, l = sp ++ ds ++ [10] ∧ (∀ c ∈ sp, c = 32 ∨ c = 9) ∧ Decimal ds v.toNat

end Spec

/-! ### Lines -/

theorem lineOf_line : ∀ (n : Nat) (t r : Str), 10 ∉ t → t.length < n → lineOf n (t ++ 10 :: r) = (t ++ [10], r)
  | 0, t, r, _, h => by omega
  | n + 1, [], r, _, _ => by rw [List.nil_append, lineOf, if_pos rfl]; rfl
  | n + 1, c :: t, r, h, hl => by
    have hc : c ≠ 10 := by rintro rfl; exact h (by simp)
    rw [List.cons_append, lineOf, if_neg hc, lineOf_line n t r (fun hm => h (List.mem_cons_of_mem _ hm)) (by simpa using hl)]
    rfl

theorem fgets_line (t r : Str) (h : 10 ∉ t) (hl : t.length ≤ 1022) : fgets (t ++ 10 :: r) = some (t ++ [10], r) := by
  rw [fgets, if_neg (by simp), lineOf_line _ _ _ h (by omega)]

theorem cstr_of {l : Str} (h : 0 ∉ l) : cstr l = l := by
  unfold cstr
  have := List.takeWhile_append_of_pos (p := fun c : BitVec 8 => decide (c ≠ 0)) (l₁ := l) (l₂ := []) (fun a ha => by
    have : a ≠ 0 := by rintro rfl; exact h ha
    simpa using this)
  simpa using this

/-! ### Numbers -/

theorem dig_toNat {d : Nat} (h : d < 10) : (BitVec.ofNat 8 (48 + d)).toNat = 48 + d := by
  rw [BitVec.toNat_ofNat]; omega

theorem dig_val {d : Nat} (h : d < 10) : digitVal (BitVec.ofNat 8 (48 + d)) = d := by
  unfold digitVal
  rw [dig_toNat h, if_pos (by omega)]
  omega

theorem digitsVal_append (b : Nat) (x y : Str) : digitsVal b (x ++ y) = digitsVal b x * b ^ y.length + digitsVal b y := by
  unfold digitsVal
  rw [List.foldl_append]
  generalize List.foldl (fun a c => b * a + digitVal c) 0 x = a
  induction y using List.reverseRecOn with
  | nil => simp
  | append_singleton y c ih =>
    rw [List.foldl_append, List.foldl_append, ih]
    simp only [List.foldl_cons, List.foldl_nil, List.length_append, List.length_singleton, pow_succ]
    ring

theorem digitsVal_map (L : List Nat) (h : ∀ d ∈ L, d < 10) :
    digitsVal 10 (L.map fun d => BitVec.ofNat 8 (48 + d)) = Nat.ofDigits 10 L.reverse := by
  induction L with
  | nil => rfl
  | cons d L ih =>
    rw [List.map_cons, ← List.singleton_append, digitsVal_append, ih (fun x hx => h x (List.mem_cons_of_mem _ hx)), List.reverse_cons,
      Nat.ofDigits_append, List.length_map, List.length_reverse, Nat.ofDigits_singleton]
    have : digitsVal 10 [BitVec.ofNat 8 (48 + d)] = d := by
      show 10 * 0 + digitVal _ = d
      rw [dig_val (h d (by simp))]; omega
    rw [this]
    ring

namespace Spec.Decimal
variable {ds : Str} {n : Nat} (h : Spec.Decimal ds n)
include h

theorem ne : ds ≠ [] := by
  obtain ⟨L, h1, -, rfl, -⟩ := h
  simpa using h1

theorem mem {c : BitVec 8} (hc : c ∈ ds) : 48 ≤ c.toNat ∧ c.toNat ≤ 57 := by
  obtain ⟨L, -, h2, rfl, -⟩ := h
  obtain ⟨d, hd, rfl⟩ := List.mem_map.1 hc
  rw [dig_toNat (h2 d hd)]
  have := h2 d hd
  omega

theorem notMem {c : BitVec 8} (hc : c.toNat < 48 ∨ 57 < c.toNat) : c ∉ ds := by
  intro hm
  have := h.mem hm
  omega

theorem val : digitsVal 10 ds = n := by
  obtain ⟨L, -, h2, rfl, rfl⟩ := h
  exact digitsVal_map L h2

theorem digits {c : BitVec 8} (hc : c ∈ ds) : isDigit 10 c = true := by
  have := h.mem hc
  unfold isDigit digitVal
  rw [if_pos this]
  simp; omega

theorem noSpace {c : BitVec 8} (hc : c ∈ ds) : isSpace c = false := by
  have := h.mem hc
  have h2 : c ≠ 32 := by rintro rfl; simp at this
  unfold isSpace
  rw [decide_eq_false h2, decide_eq_false (show ¬ c.toNat ≤ 13 by omega), Bool.and_false, Bool.or_false]

theorem noDelim {c : BitVec 8} (hc : c ∈ ds) : isDelim c = false := by
  have := h.mem hc
  unfold isDelim
  have e : ∀ k : BitVec 8, k.toNat < 48 ∨ 57 < k.toNat → c ≠ k := by rintro k hk rfl; omega
  rw [decide_eq_false (e 32 (by decide)), decide_eq_false (e 9 (by decide)), decide_eq_false (e 44 (by decide)),
    decide_eq_false (e 10 (by decide)), decide_eq_false (e 13 (by decide)), decide_eq_false (e 58 (by decide))]
  rfl

/-- A number followed by something that is not a digit. -/
theorem take (c : BitVec 8) (r : Str) (hc : isDigit 10 c = false) : (ds ++ c :: r).takeWhile (isDigit 10) = ds := by
  rw [List.takeWhile_append_of_pos (fun a ha => h.digits ha), List.takeWhile_cons_of_neg (by simp [hc]), List.append_nil]

theorem drop (c : BitVec 8) (r : Str) (hc : isDigit 10 c = false) : (ds ++ c :: r).dropWhile (isDigit 10) = c :: r := by
  rw [List.dropWhile_append_of_pos (fun a ha => h.digits ha), List.dropWhile_cons_of_neg (by simp [hc])]

theorem all : ds.takeWhile (isDigit 10) = ds := by
  have := List.takeWhile_append_of_pos (p := isDigit 10) (l₁ := ds) (l₂ := []) (fun a ha => h.digits ha)
  simpa using this

theorem spaces (r : Str) : (ds ++ r).dropWhile isSpace = ds ++ r := by
  obtain ⟨c, t, e⟩ := List.exists_cons_of_ne_nil h.ne
  rw [e, List.cons_append, List.dropWhile_cons_of_neg]
  rw [h.noSpace (by rw [e]; simp)]
  simp

theorem sgn (r : Str) : sign (ds ++ r) = (false, ds ++ r) := by
  obtain ⟨c, t, e⟩ := List.exists_cons_of_ne_nil h.ne
  have hm : c ∈ ds := by rw [e]; simp
  have h1 : c ≠ 45 := by rintro rfl; exact h.notMem (by decide) hm
  have h2 : c ≠ 43 := by rintro rfl; exact h.notMem (by decide) hm
  rw [e, List.cons_append, sign, if_neg h1, if_neg h2]

theorem atoi (hn : n < 2 ^ 31) : Dh.atoi ds = .ok n := by
  unfold Dh.atoi
  have h1 := h.spaces []
  have h2 := h.sgn []
  rw [List.append_nil] at h1 h2
  simp only [h1, h2, h.all, h.val, Bool.false_eq_true, if_false]
  rw [if_pos (by omega)]

end Spec.Decimal

theorem hexPrefix_dec (s : Str) : hexPrefix 10 s = s := by
  unfold hexPrefix
  split
  · rw [if_neg (by omega)]; rfl
  · rfl

theorem Spec.ValueLine.scan {l : Str} {v : UInt} (h : Spec.ValueLine l v) : scanUInt 10 (cstr l) = .ok v := by
  obtain ⟨-, sp, ds, rfl, hs, hd⟩ := h
  have h0 : (0 : BitVec 8) ∉ sp ++ ds ++ [10] := by
    simp only [List.mem_append, List.mem_singleton]
    rintro ((h | h) | h)
    · rcases hs 0 h with h | h <;> simp at h
    · exact hd.notMem (by decide) h
    · simp at h
  have e1 : (sp ++ ds ++ [10]).dropWhile isSpace = ds ++ [10] := by
    rw [List.append_assoc, List.dropWhile_append_of_pos (fun a ha => by rcases hs a ha with rfl | rfl <;> decide), hd.spaces]
  rw [cstr_of h0]
  unfold scanUInt
  simp only [e1, hd.sgn, hexPrefix_dec, hd.take 10 [] (by decide)]
  rw [if_neg (by simp), if_neg hd.ne, hd.val, if_pos v.isLt, if_neg (by simp)]
  congr 1
  apply BitVec.eq_of_toNat_eq
  simp

theorem Spec.ValueLine.line {l : Str} {v : UInt} (h : Spec.ValueLine l v) : ∃ t, l = t ++ [10] ∧ 10 ∉ t ∧ t.length ≤ 1022 := by
  obtain ⟨hl, sp, ds, rfl, hs, hd⟩ := h
  refine ⟨sp ++ ds, rfl, ?_, by simp at hl ⊢; omega⟩
  simp only [List.mem_append]
  rintro (h | h)
  · rcases hs _ h with h | h <;> simp at h
  · exact hd.notMem (by decide) h

theorem decStr_decimal (n : Nat) : Spec.Decimal (decStr n) n := by
  unfold decStr
  split
  · next h => subst h; exact ⟨[0], by simp, by simp, rfl, rfl⟩
  · next h =>
    refine ⟨(Nat.digits 10 n).reverse, ?_, fun d hd => ?_, rfl, ?_⟩
    · rw [ne_eq, List.reverse_eq_nil_iff, Nat.digits_eq_nil_iff_eq_zero]; exact h
    · exact Nat.digits_lt_base (by omega) (List.mem_reverse.1 hd)
    · rw [List.reverse_reverse, Nat.ofDigits_digits]

theorem decStr_length (n k : Nat) (hk : 0 < k) (h : n < 10 ^ k) : (decStr n).length ≤ k := by
  unfold decStr
  split
  · exact hk
  · rw [List.length_map, List.length_reverse]
    exact (Nat.digits_length_le_iff (by omega) n).2 h

/-! ### Header lines -/

theorem rd_getD' {α : Type} {l : List α} {i : Nat} (d : α) (h : i < l.length) : rd l i = .ok (l.getD i d) := by
  rw [rd_ok h, List.getD, List.getElem?_eq_getElem h]
  rfl

theorem split_setting (name val : Str) (sbuf : List (List (BitVec 8))) (hl : sbuf.length = PK) (hn : name ≠ []) (hv : val ≠ [])
    (hnd : ∀ c ∈ name, isDelim c = false) (hvd : ∀ c ∈ val, isDelim c = false) :
    ∃ sbuf', split (name ++ [58, 32] ++ val) sbuf = .ok (2, sbuf') ∧ sbuf'.length = PK ∧ rd sbuf' 0 = .ok (strncpyBuf name) ∧
      rd sbuf' 1 = .ok (strncpyBuf val) := by
  have hf : Spec.fields (name ++ [58, 32] ++ val) = [name, val] := by
    rw [List.append_assoc, List.cons_append, List.cons_append, List.nil_append, fields_run name _ hn hnd (Or.inr ⟨58, 32 :: val, rfl, by decide⟩)]
    show name :: Spec.fields (32 :: val) = _
    rw [fields_delim (by decide)]
    have := fields_run val [] hv hvd (Or.inl rfl)
    rw [List.append_nil] at this
    rw [this]
    rfl
  obtain ⟨b, e, -, h⟩ := C52_split (name ++ [58, 32] ++ val) sbuf hl
  have hs := h (by rw [hf]; simp)
  rw [hf] at hs e
  have hlen : b.length = PK := by rw [hs.len, hl]
  have hPK : PK = 1024 := rfl
  refine ⟨b, e, hlen, ?_, ?_⟩
  · rw [rd_getD' [] (by omega)]
    exact congrArg _ (hs.get 0 (by simp [hPK]))
  · rw [rd_getD' [] (by omega)]
    exact congrArg _ (hs.get 1 (by simp [hPK]))

/-- The settings after a line of the header. -/
def applyI (st : FileS) : Spec.HItem → FileS
  | .comment _ => st
  | .type c => { st with ftype := c }
  | .count ds => { st with flen := digitsVal 10 ds }
  | .numbit ds => { st with numbits := digitsVal 10 ds }

/-- The items that can be read. -/
def GoodI : Spec.HItem → Prop
  | .comment t => 10 ∉ t ∧ t.length ≤ 1021
  | .type c => c ≠ 0 ∧ isDelim c = false
  | .count ds => ds.length < 128 ∧ ∃ n, n < 2 ^ 31 ∧ Spec.Decimal ds n
  | .numbit ds => ds.length < 128 ∧ ∃ n, n < 2 ^ 31 ∧ Spec.Decimal ds n

theorem chop_line (t : Str) (h : 0 ∉ t) : chop (cstr (t ++ [10])) = .ok t := by
  rw [cstr_of (by simpa using h)]
  exact (C52_chop t 10).1

theorem cstring_dec {ds : Str} {n : Nat} (h : Spec.Decimal ds n) (hl : ds.length < 128) : cstring (strncpyBuf ds) = some ds := by
  rw [strncpyBuf_short ds (h.notMem (by decide)), if_pos (show _ < PBUF from hl)]

theorem headerLine_ok (cnt : Nat) (i : Spec.HItem) (st : FileS) (hg : GoodI i) (hc : i.isComment = false) (hl : st.sbuf.length = PK) :
    ∃ sb, sb.length = PK ∧ headerLine cnt i.text st = .ok (cnt + 1, applyI { st with sbuf := sb } i) := by
  cases i with
  | comment t => simp [Spec.HItem.isComment] at hc
  | type c =>
    obtain ⟨h0, hd⟩ := hg
    obtain ⟨sb, e, l, e0, e1⟩ := split_setting [116, 121, 112, 101] [c] st.sbuf hl (by simp) (by simp) (by decide) (by simpa using hd)
    refine ⟨sb, l, ?_⟩
    rw [headerLine, show Spec.HItem.text (.type c) = ([116, 121, 112, 101] ++ [58, 32] ++ [c]) ++ [10] from rfl,
      chop_line _ (by simpa using h0.symm)]
    simp only [Res.bind_ok, e]
    rw [if_neg (by simp), e0, e1]
    simp only [Res.bind_ok]
    rw [if_pos (by decide)]
    rfl
  | count ds =>
    obtain ⟨hlen, n, hn, hd⟩ := hg
    obtain ⟨sb, e, l, e0, e1⟩ := split_setting [99, 111, 117, 110, 116] ds st.sbuf hl (by simp) hd.ne (by decide) (fun c hc => hd.noDelim hc)
    refine ⟨sb, l, ?_⟩
    rw [headerLine, show Spec.HItem.text (.count ds) = ([99, 111, 117, 110, 116] ++ [58, 32] ++ ds) ++ [10] by simp [Spec.HItem.text],
      chop_line _ (by simpa using hd.notMem (by decide))]
    simp only [Res.bind_ok, e]
    rw [if_neg (by simp), e0, e1]
    simp only [Res.bind_ok]
    rw [if_neg (by decide), if_pos (by decide), cstring_dec hd hlen]
    simp only [hd.atoi hn, Res.bind_ok, applyI, hd.val]
  | numbit ds =>
    obtain ⟨hlen, n, hn, hd⟩ := hg
    obtain ⟨sb, e, l, e0, e1⟩ := split_setting [110, 117, 109, 98, 105, 116] ds st.sbuf hl (by simp) hd.ne (by decide) (fun c hc => hd.noDelim hc)
    refine ⟨sb, l, ?_⟩
    rw [headerLine, show Spec.HItem.text (.numbit ds) = ([110, 117, 109, 98, 105, 116] ++ [58, 32] ++ ds) ++ [10] by simp [Spec.HItem.text],
      chop_line _ (by simpa using hd.notMem (by decide))]
    simp only [Res.bind_ok, e]
    rw [if_neg (by simp), e0, e1]
    simp only [Res.bind_ok]
    rw [if_neg (by decide), if_neg (by decide), if_pos (by decide), cstring_dec hd hlen]
    simp only [hd.atoi hn, Res.bind_ok, applyI, hd.val]

/-- Every item is one line. -/
theorem text_line (i : Spec.HItem) (h : GoodI i) : ∃ c t, i.text = c :: t ++ [10] ∧ 10 ∉ c :: t ∧ (c :: t).length ≤ 1022 ∧
    (c = 35 ↔ i.isComment = true) := by
  cases i with
  | comment t =>
    obtain ⟨h1, h2⟩ := h
    exact ⟨35, t, rfl, by simpa using h1, by rw [List.length_cons]; omega, by simp [Spec.HItem.isComment]⟩
  | type c =>
    refine ⟨116, [121, 112, 101, 58, 32, c], rfl, ?_, by simp, by simp [Spec.HItem.isComment]⟩
    have : (10 : BitVec 8) ≠ c := by rintro rfl; exact absurd h.2 (by decide)
    simpa using this
  | count ds =>
    obtain ⟨hlen, n, hn, hd⟩ := h
    refine ⟨99, [111, 117, 110, 116, 58, 32] ++ ds, rfl, ?_, by simp; omega, by simp [Spec.HItem.isComment]⟩
    simpa using hd.notMem (by decide)
  | numbit ds =>
    obtain ⟨hlen, n, hn, hd⟩ := h
    refine ⟨110, [117, 109, 98, 105, 116, 58, 32] ++ ds, rfl, ?_, by simp; omega, by simp [Spec.HItem.isComment]⟩
    simpa using hd.notMem (by decide)

/-- Everything but the settings, the stream and the buffer is the same. -/
structure SameRest (st st' : FileS) : Prop where
  rptr : st'.rptr = st.rptr
  rtot : st'.rtot = st.rtot
  rewindCnt : st'.rewindCnt = st.rewindCnt

theorem headerLoop_items : ∀ (items : List Spec.HItem) (fuel cnt : Nat) (st : FileS) (r : Str), (∀ i ∈ items, GoodI i) →
    cnt + (items.filter fun i => !i.isComment).length = 3 → (items = [] ∨ ∃ init i, items = init ++ [i] ∧ i.isComment = false) →
    st.fp = some ((items.map Spec.HItem.text).flatten ++ r) → st.sbuf.length = PK → items.length < fuel →
    ∃ st', headerLoop fuel cnt st = .ok st' ∧ st'.fp = some r ∧ SameRest st st' ∧ st'.sbuf.length = PK ∧
      st'.ftype = (items.foldl applyI st).ftype ∧ st'.flen = (items.foldl applyI st).flen ∧ st'.numbits = (items.foldl applyI st).numbits
  | [], fuel, cnt, st, r, _, hc, _, hfp, hl, hf => by
    obtain ⟨f, rfl⟩ : ∃ f, fuel = f + 1 := ⟨fuel - 1, by omega⟩
    rw [headerLoop, if_neg (by simpa using hc.ge)]
    exact ⟨st, rfl, by simpa using hfp, ⟨rfl, rfl, rfl⟩, hl, rfl, rfl, rfl⟩
  | i :: items, fuel, cnt, st, r, hg, hc, hlast, hfp, hl, hf => by
    obtain ⟨f, rfl⟩ : ∃ f, fuel = f + 1 := ⟨fuel - 1, by omega⟩
    have hset : 0 < ((i :: items).filter fun i => !i.isComment).length := by
      rcases hlast with h | ⟨init, j, h, hj⟩
      · simp at h
      · exact List.length_pos_of_mem (a := j) (by rw [h]; simp [hj])
    have hlast' : items = [] ∨ ∃ init i, items = init ++ [i] ∧ i.isComment = false := by
      rcases hlast with h | ⟨init, j, h, hj⟩
      · simp at h
      · cases init with
        | nil => left; simpa using (List.cons.inj h).2
        | cons a init => right; exact ⟨init, j, (List.cons.inj h).2, hj⟩
    obtain ⟨c, t, ht, hnl, hlen, hcc⟩ := text_line i (hg i (by simp))
    have hg' : ∀ j ∈ items, GoodI j := fun j hj => hg j (List.mem_cons_of_mem _ hj)
    rw [headerLoop, if_pos (by omega), hfp]
    have e : ((i :: items).map Spec.HItem.text).flatten ++ r = (c :: t) ++ 10 :: ((items.map Spec.HItem.text).flatten ++ r) := by
      rw [List.map_cons, List.flatten_cons, ht]; simp
    simp only [e, fgets_line (c :: t) _ hnl hlen]
    rw [show rd (c :: t ++ [10] ++ [0]) 0 = .ok c from rfl]
    simp only [Res.bind_ok]
    by_cases hic : i.isComment = true
    · rw [if_pos (hcc.2 hic)]
      simp only [Res.bind_ok]
      have hcnt : cnt + (items.filter fun i => !i.isComment).length = 3 := by
        rw [List.filter_cons_of_neg (by simp [hic])] at hc; exact hc
      obtain ⟨st', e1, e2, ⟨a1, a2, a3⟩, e4, e5, e6, e7⟩ := headerLoop_items items f cnt
        { st with fp := some ((items.map Spec.HItem.text).flatten ++ r) } r hg' hcnt hlast' rfl hl (by simpa using hf)
      have hap : applyI st i = st := by cases i <;> simp [Spec.HItem.isComment] at hic; rfl
      refine ⟨st', e1, e2, ⟨a1, a2, a3⟩, e4, ?_⟩
      rw [List.foldl_cons, hap]
      have key : ∀ (l : List Spec.HItem) (s s' : FileS), s.ftype = s'.ftype → s.flen = s'.flen → s.numbits = s'.numbits →
          (l.foldl applyI s).ftype = (l.foldl applyI s').ftype ∧ (l.foldl applyI s).flen = (l.foldl applyI s').flen ∧
          (l.foldl applyI s).numbits = (l.foldl applyI s').numbits := by
        intro l
        induction l with
        | nil => intro s s' h1 h2 h3; exact ⟨h1, h2, h3⟩
        | cons j l ih =>
          intro s s' h1 h2 h3
          rw [List.foldl_cons, List.foldl_cons]
          apply ih <;> cases j <;> simp [applyI, h1, h2, h3]
      obtain ⟨k1, k2, k3⟩ := key items { st with fp := some ((items.map Spec.HItem.text).flatten ++ r) } st rfl rfl rfl
      exact ⟨e5.trans k1, e6.trans k2, e7.trans k3⟩
    · rw [if_neg (fun h => hic (hcc.1 h))]
      rw [← ht]
      obtain ⟨sb, hsb, e0⟩ := headerLine_ok cnt i { st with fp := some ((items.map Spec.HItem.text).flatten ++ r) } (hg i (by simp))
        (by simpa using hic) hl
      rw [e0]
      simp only [Res.bind_ok]
      have hcnt : cnt + 1 + (items.filter fun i => !i.isComment).length = 3 := by
        rw [List.filter_cons_of_pos (by simp [hic]), List.length_cons] at hc; omega
      have hfp' : ∀ s : FileS, (applyI s i).fp = s.fp ∧ (applyI s i).sbuf = s.sbuf ∧ (applyI s i).rptr = s.rptr ∧ (applyI s i).rtot = s.rtot ∧
          (applyI s i).rewindCnt = s.rewindCnt := by intro s; cases i <;> exact ⟨rfl, rfl, rfl, rfl, rfl⟩
      obtain ⟨p1, p2, p3, p4, p5⟩ := hfp' { st with fp := some ((items.map Spec.HItem.text).flatten ++ r), sbuf := sb }
      obtain ⟨st', e1, e2, ⟨a1, a2, a3⟩, e4, e5, e6, e7⟩ := headerLoop_items items f (cnt + 1)
        (applyI { st with fp := some ((items.map Spec.HItem.text).flatten ++ r), sbuf := sb } i) r hg' hcnt hlast' p1 (by rw [p2]; exact hsb)
        (by simpa using hf)
      refine ⟨st', e1, e2, ⟨by rw [a1, p3], by rw [a2, p4], by rw [a3, p5]⟩, e4, ?_⟩
      rw [List.foldl_cons]
      have key : ∀ (l : List Spec.HItem) (s s' : FileS), s.ftype = s'.ftype → s.flen = s'.flen → s.numbits = s'.numbits →
          (l.foldl applyI s).ftype = (l.foldl applyI s').ftype ∧ (l.foldl applyI s).flen = (l.foldl applyI s').flen ∧
          (l.foldl applyI s).numbits = (l.foldl applyI s').numbits := by
        intro l
        induction l with
        | nil => intro s s' h1 h2 h3; exact ⟨h1, h2, h3⟩
        | cons j l ih =>
          intro s s' h1 h2 h3
          rw [List.foldl_cons, List.foldl_cons]
          apply ih <;> cases j <;> simp [applyI, h1, h2, h3]
      obtain ⟨k1, k2, k3⟩ := key items (applyI { st with fp := some ((items.map Spec.HItem.text).flatten ++ r), sbuf := sb } i) (applyI st i)
        (by cases i <;> rfl) (by cases i <;> rfl) (by cases i <;> rfl)
      exact ⟨e5.trans k1, e6.trans k2, e7.trans k3⟩

/-- Reading a header. -/
theorem headerLoop_header {items : List Spec.HItem} {ty : BitVec 8} {count numbit : Nat} (h : Spec.Header items ty count numbit)
    (hc : count < 2 ^ 31) (hb : numbit < 2 ^ 31) (fuel : Nat) (st : FileS) (r : Str)
    (hfp : st.fp = some ((items.map Spec.HItem.text).flatten ++ r)) (hl : st.sbuf.length = PK) (hf : items.length < fuel) :
    ∃ st', headerLoop fuel 0 st = .ok st' ∧ st'.fp = some r ∧ SameRest st st' ∧ st'.sbuf.length = PK ∧
      st'.ftype = ty ∧ st'.flen = count ∧ st'.numbits = numbit := by
  obtain ⟨dc, db, hdc, hlc, hdb, hlb, hp⟩ := h.settings
  have hmem : ∀ i ∈ items, i.isComment = false → i = .type ty ∨ i = .count dc ∨ i = .numbit db := by
    intro i hi hic
    have := hp.mem_iff (a := i) |>.1 (by simp [hi, hic])
    simpa using this
  have hin : ∀ i, i = .type ty ∨ i = .count dc ∨ i = .numbit db → i ∈ items := by
    intro i hi
    have := hp.mem_iff (a := i) |>.2 (by simpa using hi)
    exact (List.mem_filter.1 this).1
  have hgood : ∀ i ∈ items, GoodI i := by
    intro i hi
    cases hci : i.isComment
    · rcases hmem i hi hci with rfl | rfl | rfl
      · exact h.letter
      · exact ⟨hlc, count, hc, hdc⟩
      · exact ⟨hlb, numbit, hb, hdb⟩
    · cases i <;> simp [Spec.HItem.isComment] at hci
      exact h.comments _ hi
  obtain ⟨st', e1, e2, e3, e4, e5, e6, e7⟩ := headerLoop_items items fuel 0 st r hgood (by rw [hp.length_eq]; rfl) (Or.inr h.last) hfp hl hf
  have k1 : ∀ (l : List Spec.HItem) (s : FileS), (∀ c, .type c ∈ l → c = ty) → (s.ftype = ty ∨ .type ty ∈ l) → (l.foldl applyI s).ftype = ty := by
    intro l
    induction l with
    | nil => intro s _ h; simpa using h
    | cons j l ih =>
      intro s hall hs
      rw [List.foldl_cons]
      refine ih _ (fun c hc => hall c (List.mem_cons_of_mem _ hc)) ?_
      cases j with
      | type c => left; exact hall c (by simp)
      | _ => simpa [applyI] using hs
  have k2 : ∀ (l : List Spec.HItem) (s : FileS), (∀ c, .count c ∈ l → c = dc) → (s.flen = digitsVal 10 dc ∨ .count dc ∈ l) →
      (l.foldl applyI s).flen = digitsVal 10 dc := by
    intro l
    induction l with
    | nil => intro s _ h; simpa using h
    | cons j l ih =>
      intro s hall hs
      rw [List.foldl_cons]
      refine ih _ (fun c hc => hall c (List.mem_cons_of_mem _ hc)) ?_
      cases j with
      | count c => left; rw [hall c (by simp)]; rfl
      | _ => simpa [applyI] using hs
  have k3 : ∀ (l : List Spec.HItem) (s : FileS), (∀ c, .numbit c ∈ l → c = db) → (s.numbits = digitsVal 10 db ∨ .numbit db ∈ l) →
      (l.foldl applyI s).numbits = digitsVal 10 db := by
    intro l
    induction l with
    | nil => intro s _ h; simpa using h
    | cons j l ih =>
      intro s hall hs
      rw [List.foldl_cons]
      refine ih _ (fun c hc => hall c (List.mem_cons_of_mem _ hc)) ?_
      cases j with
      | numbit c => left; rw [hall c (by simp)]; rfl
      | _ => simpa [applyI] using hs
  refine ⟨st', e1, e2, e3, e4, ?_, ?_, ?_⟩
  · rw [e5]
    exact k1 _ _ (fun c hc => by rcases hmem _ hc rfl with h | h | h <;> simp at h; exact h) (Or.inr (hin _ (by simp)))
  · rw [e6, k2 _ _ (fun c hc => by rcases hmem _ hc rfl with h | h | h <;> simp at h; exact h) (Or.inr (hin _ (by simp))), hdc.val]
  · rw [e7, k3 _ _ (fun c hc => by rcases hmem _ hc rfl with h | h | h <;> simp at h; exact h) (Or.inr (hin _ (by simp))), hdb.val]

end Dh
