import Verif.Props.FileInput
/-
C20, continued: signed, octal and hexadecimal numbers, long lines, and header lines that are not settings.
-/
set_option linter.unusedSimpArgs false
namespace Dh
namespace Spec

/-- The ways to write a digit: `0` to `9`, then `a` to `f` or `A` to `F`. -/
def DigitChar (d : Nat) (c : BitVec 8) : Prop :=
  (d < 10 ∧ c = BitVec.ofNat 8 (48 + d)) ∨ (10 ≤ d ∧ (c = BitVec.ofNat 8 (97 + (d - 10)) ∨ c = BitVec.ofNat 8 (65 + (d - 10))))

/-- `ds` is the number `n` written in the base, most significant digit first, at least one digit. -/
def Numeral (base : Nat) (ds : Str) (n : Nat) : Prop :=
  ∃ L : List Nat, L ≠ [] ∧ (∀ d ∈ L, d < base) ∧ List.Forall₂ DigitChar L ds ∧ n = Nat.ofDigits base L.reverse

/-- A line of data in the base: blanks or tabs, an optional sign, in base 16 an optional `0x` or `0X`, a number below `2^32`, a newline.
A minus sign stands for the negative modulo `2^32`. -/
def NumberLine (base : Nat) (l : Str) (v : UInt) : Prop :=
  l.length ≤ 1023 ∧ ∃ sp sg pre ds n, l = sp ++ sg ++ pre ++ ds ++ [10] ∧ (∀ c ∈ sp, c = 32 ∨ c = 9) ∧
    (pre = [] ∨ base = 16 ∧ (pre = [48, 120] ∨ pre = [48, 88])) ∧ Numeral base ds n ∧ n < 2 ^ 32 ∧
    (((sg = [] ∨ sg = [43]) ∧ v.toNat = n) ∨ (sg = [45] ∧ (v.toNat + n) % 2 ^ 32 = 0))

/-- The base that belongs to a type letter: `d`, `i`, `u`, `o`, `x`, `X`. -/
def typeBase (ty : BitVec 8) (base : Nat) : Prop :=
  ((ty = 100 ∨ ty = 105 ∨ ty = 117) ∧ base = 10) ∨ (ty = 111 ∧ base = 8) ∨ ((ty = 120 ∨ ty = 88) ∧ base = 16)

end Spec
open Spec

theorem Spec.DigitChar.val {d : Nat} {c : BitVec 8} (h : DigitChar d c) (hd : d < 16) : digitVal c = d := by
  rcases h with ⟨h, rfl⟩ | ⟨h, rfl | rfl⟩ <;> interval_cases d <;> first | decide | omega

theorem Spec.DigitChar.range {d : Nat} {c : BitVec 8} (h : DigitChar d c) (hd : d < 16) :
    c ≠ 0 ∧ c ≠ 10 ∧ c ≠ 43 ∧ c ≠ 45 ∧ c ≠ 120 ∧ c ≠ 88 ∧ isSpace c = false := by
  rcases h with ⟨h, rfl⟩ | ⟨h, rfl | rfl⟩ <;> interval_cases d <;> first | decide | omega

section
variable {base : Nat} {ds : Str} {n : Nat}

theorem Spec.Numeral.ne (h : Numeral base ds n) : ds ≠ [] := by
  obtain ⟨L, h1, -, h3, -⟩ := h
  rintro rfl
  cases h3
  exact h1 rfl

theorem Spec.Numeral.mem (h : Numeral base ds n) (hb : base ≤ 16) {c : BitVec 8} (hc : c ∈ ds) : ∃ d < base, DigitChar d c ∧ digitVal c = d := by
  obtain ⟨L, -, h2, h3, -⟩ := h
  induction h3 with
  | nil => simp at hc
  | @cons d c' L ds hd _ ih =>
    rcases List.mem_cons.1 hc with rfl | hc
    · exact ⟨d, h2 d (by simp), hd, hd.val (by have := h2 d (by simp); omega)⟩
    · exact ih hc fun e he => h2 e (List.mem_cons_of_mem _ he)

theorem Spec.Numeral.val (h : Numeral base ds n) (hb : base ≤ 16) : digitsVal base ds = n := by
  obtain ⟨L, -, h2, h3, rfl⟩ := h
  have key : ∀ a, ds.foldl (fun a c => base * a + digitVal c) a = L.foldl (fun a d => base * a + d) a := by
    induction h3 with
    | nil => intro a; rfl
    | @cons d c L ds hd _ ih =>
      intro a
      rw [List.foldl_cons, List.foldl_cons, hd.val (by have := h2 d (by simp); omega), ih fun e he => h2 e (by simp [he])]
  rw [digitsVal, key, ← List.foldr_reverse, Nat.ofDigits_eq_foldr]
  congr 1
  funext x y
  rw [Nat.add_comm]
  rfl

theorem Spec.Numeral.digit (h : Numeral base ds n) (hb : base ≤ 16) {c : BitVec 8} (hc : c ∈ ds) : isDigit base c = true := by
  obtain ⟨d, h1, -, h2⟩ := h.mem hb hc
  simpa [isDigit, h2] using h1

theorem Spec.Numeral.notMem (h : Numeral base ds n) (hb : base ≤ 16) {c : BitVec 8}
    (hc : c = 0 ∨ c = 10 ∨ c = 43 ∨ c = 45 ∨ c = 120 ∨ c = 88) : c ∉ ds := by
  intro hm
  obtain ⟨d, h1, h2, -⟩ := h.mem hb hm
  have := h2.range (by omega)
  tauto

theorem newline_not_digit (hb : base ≤ 16) : isDigit base 10 = false := by
  rw [isDigit, show digitVal 10 = 99 from by decide]
  simpa using by omega

theorem Spec.Numeral.take (h : Numeral base ds n) (hb : base ≤ 16) : (ds ++ [10]).takeWhile (isDigit base) = ds := by
  rw [List.takeWhile_append_of_pos fun c hc => h.digit hb hc, List.takeWhile_cons_of_neg (by rw [newline_not_digit hb]; simp), List.append_nil]

/-- What is left after the sign. -/
theorem Spec.Numeral.prefixed (h : Numeral base ds n) (hb : base ≤ 16) {pre : Str}
    (hp : pre = [] ∨ base = 16 ∧ (pre = [48, 120] ∨ pre = [48, 88])) : hexPrefix base (pre ++ ds ++ [10]) = ds ++ [10] := by
  rcases hp with rfl | ⟨rfl, rfl | rfl⟩
  · rw [List.nil_append]
    have hx : ∀ c s, ds ++ [10] = 48 :: c :: s → ¬(c = 120 ∨ c = 88) := by
      intro c s e hc
      match ds, e with
      | [a], e => simp at e; obtain ⟨-, rfl, -⟩ := e; revert hc; decide
      | a :: b :: r, e =>
        simp at e
        obtain ⟨-, rfl, -⟩ := e
        rcases hc with rfl | rfl
        · exact h.notMem hb (c := 120) (by simp) (by simp)
        · exact h.notMem hb (c := 88) (by simp) (by simp)
    generalize ds ++ [10] = s at hx
    unfold hexPrefix
    split
    · rename_i c s
      rw [if_neg fun hc => hx c s rfl hc.2]
      rfl
    · rfl
  · rfl
  · rfl
end

/-- The sign, the prefix and the digits are read for what they are. -/
theorem Spec.NumberLine.scan {base : Nat} (hb : base ≤ 16) {l : Str} {v : UInt} (h : NumberLine base l v) : scanUInt base (cstr l) = .ok v := by
  obtain ⟨-, sp, sg, pre, ds, n, rfl, hs, hp, hd, hn, hv⟩ := h
  have hsg : sg = [] ∨ sg = [43] ∨ sg = [45] := by tauto
  have h0 : (0 : BitVec 8) ∉ sp ++ sg ++ pre ++ ds ++ [10] := by
    simp only [List.mem_append, List.mem_singleton, not_or]
    refine ⟨⟨⟨⟨?_, ?_⟩, ?_⟩, hd.notMem hb (by simp)⟩, by decide⟩
    · intro h; rcases hs 0 h with h | h <;> simp at h
    · rcases hsg with rfl | rfl | rfl <;> decide
    · rcases hp with rfl | ⟨-, rfl | rfl⟩ <;> decide
  -- the first character after the blanks is not a blank
  have hfirst : ∀ c r, pre ++ ds ++ [10] = c :: r → isSpace c = false ∧ c ≠ 43 ∧ c ≠ 45 := by
    intro c r e
    rcases hp with rfl | ⟨-, rfl | rfl⟩
    · match ds, hd.ne, e, (fun (x : BitVec 8) (hx : x ∈ ds) => hd.mem hb hx) with
      | a :: r', _, e, hm =>
        simp at e
        obtain ⟨rfl, -⟩ := e
        obtain ⟨d, h1, h2, -⟩ := hm a (by simp)
        have := h2.range (by omega)
        tauto
    · simp at e; obtain ⟨rfl, -⟩ := e; decide
    · simp at e; obtain ⟨rfl, -⟩ := e; decide
  obtain ⟨c0, r0, e0⟩ : ∃ c r, pre ++ ds ++ [10] = c :: r := by
    cases hh : pre ++ ds ++ [10] with
    | nil => simp at hh
    | cons c r => exact ⟨c, r, rfl⟩
  obtain ⟨f1, f2, f3⟩ := hfirst c0 r0 e0
  have e1 : (sp ++ sg ++ pre ++ ds ++ [10]).dropWhile isSpace = sg ++ (pre ++ ds ++ [10]) := by
    rw [show sp ++ sg ++ pre ++ ds ++ [10] = sp ++ (sg ++ (pre ++ ds ++ [10])) from by simp,
      List.dropWhile_append_of_pos (fun a ha => by rcases hs a ha with rfl | rfl <;> decide)]
    rcases hsg with rfl | rfl | rfl
    · rw [List.nil_append, e0, List.dropWhile_cons_of_neg (by simp [f1])]
    · rfl
    · rfl
  have e2 : sign (sg ++ (pre ++ ds ++ [10])) = (decide (sg = [45]), pre ++ ds ++ [10]) := by
    rcases hsg with rfl | rfl | rfl
    · rw [List.nil_append, e0, sign, if_neg f3, if_neg f2]; rfl
    · rfl
    · rfl
  rw [cstr_of h0]
  unfold scanUInt
  simp only [e1, e2, hd.prefixed hb hp, hd.take hb]
  rw [if_neg (by simp), if_neg hd.ne, hd.val hb, if_pos hn]
  congr 1
  apply BitVec.eq_of_toNat_eq
  rcases hv with ⟨h1, h2⟩ | ⟨rfl, h2⟩
  · have : decide (sg = [45]) = false := by rcases h1 with rfl | rfl <;> rfl
    rw [this, if_neg (by simp), BitVec.toNat_ofNat, Nat.mod_eq_of_lt hn, h2]
  · rw [if_pos (by simp), BitVec.toNat_neg, BitVec.toNat_ofNat, Nat.mod_eq_of_lt hn]
    have := v.isLt
    omega

theorem Spec.NumberLine.line {base : Nat} (hb : base ≤ 16) {l : Str} {v : UInt} (h : NumberLine base l v) :
    ∃ t, l = t ++ [10] ∧ 10 ∉ t ∧ t.length ≤ 1022 := by
  obtain ⟨hl, sp, sg, pre, ds, n, rfl, hs, hp, hd, hn, hv⟩ := h
  have hsg : sg = [] ∨ sg = [43] ∨ sg = [45] := by tauto
  refine ⟨sp ++ sg ++ pre ++ ds, rfl, ?_, by simp at hl ⊢; omega⟩
  simp only [List.mem_append, not_or]
  refine ⟨⟨⟨?_, ?_⟩, ?_⟩, hd.notMem hb (by simp)⟩
  · intro h; rcases hs _ h with h | h <;> simp at h
  · rcases hsg with rfl | rfl | rfl <;> decide
  · rcases hp with rfl | ⟨-, rfl | rfl⟩ <;> decide

theorem convertLine_base (rnd : ℚ → ℚ) {ty : BitVec 8} {base : Nat} (h : typeBase ty base) (nb : Int) (l : Str) :
    convertLine rnd ty nb l = scanUInt base (cstr l) := by
  rcases h with ⟨h, rfl⟩ | ⟨rfl, rfl⟩ | ⟨h, rfl⟩
  · rw [convertLine, if_pos h]
  · rfl
  · rcases h with rfl | rfl <;> rfl

/-- **C20.** `C20_ascii` for every integer type letter: signed and unsigned decimal, octal and hexadecimal numbers are delivered
cyclically. -/
theorem C20_ascii_bases (rnd : ℚ → ℚ) {items : List Spec.HItem} {ty : BitVec 8} {n nb base : Nat} (h : Spec.Header items ty n nb)
    (hty : typeBase ty base) (hn : 0 < n) (hn2 : n < 2 ^ 31) (hb : nb < 2 ^ 31) (lines : List Str) (vals : List UInt)
    (hv : List.Forall₂ (NumberLine base) lines vals) (hlen : lines.length = n) (extra : Str)
    (ty₀ : BitVec 8) (nb₀ : Int) (sbuf : List (List (BitVec 8))) (hl : sbuf.length = PK) (s₀ : BitVec 64) (cs : List Call) :
    ∃ st₀ st, fileSet ((items.map Spec.HItem.text).flatten ++ (lines.flatten ++ extra)) s₀ (fileAlloc ty₀ nb₀ sbuf) = .ok st₀ ∧
      fileCalls rnd ((items.map Spec.HItem.text).flatten ++ (lines.flatten ++ extra)) cs st₀ =
        .ok (Spec.outputs (fun k => vals.getD (k % n) 0) 0 cs, st) ∧
      st.rtot = Spec.since 0 cs ∧
      (Spec.since 0 cs < n * 2 ^ 32 → (rewindReport st.rewindCnt st.rptr).toNat = (Spec.since 0 cs - 1) / n) := by
  have hb16 : base ≤ 16 := by rcases hty with ⟨-, rfl⟩ | ⟨-, rfl⟩ | ⟨-, rfl⟩ <;> omega
  have hv' := forall₂_getD hv [] 0
  refine file_any rnd h hn hn2 hb lines vals hlen (fun j hj => (hv' j (by omega)).line hb16) (fun j hj => ?_) extra ty₀ nb₀ sbuf hl s₀ cs
  rw [convertLine_base rnd hty]
  exact (hv' j (by omega)).scan hb16

/-- `+0x1F` is 31, `-1` is `2^32 - 1`, `017` is 15 in base 8. -/
example : NumberLine 16 [32, 43, 48, 120, 49, 70, 10] 31 :=
  ⟨by simp, [32], [43], [48, 120], [49, 70], 31, rfl, by simp, by simp,
    ⟨[1, 15], by simp, by simp, .cons (Or.inl ⟨by omega, rfl⟩) (.cons (Or.inr ⟨by omega, Or.inr rfl⟩) .nil), rfl⟩, by norm_num, Or.inl ⟨Or.inr rfl, rfl⟩⟩

example : NumberLine 10 [45, 49, 10] 0xffffffff :=
  ⟨by simp, [], [45], [], [49], 1, rfl, by simp, by simp, ⟨[1], by simp, by simp, .cons (Or.inl ⟨by omega, rfl⟩) .nil, rfl⟩, by norm_num,
    Or.inr ⟨rfl, rfl⟩⟩

example : convertLine id 111 32 [48, 49, 55, 10] = .ok 15 ∧ convertLine id 88 32 [43, 48, 120, 49, 102, 10] = .ok 31 := by decide +kernel

/-! ### Long lines -/

theorem lineOf_long : ∀ (n : Nat) (t r : Str), 10 ∉ t → t.length = n → lineOf n (t ++ r) = (t, r)
  | 0, [], r, _, _ => rfl
  | n + 1, c :: t, r, h, hl => by
    have hc : c ≠ 10 := by rintro rfl; exact h (by simp)
    rw [List.cons_append, lineOf, if_neg hc, lineOf_long n t r (fun hm => h (List.mem_cons_of_mem _ hm)) (by simpa using hl)]

/-- **C20, a corner.** A line of more than 1022 characters is not one number: a draw takes its first 1023 characters and the next draw
takes what follows. -/
theorem C20_long_line (rnd : ℚ → ℚ) (file t r : Str) (h : 10 ∉ t) (hl : t.length = 1023) (st : FileS) (hst : st.fp = some (t ++ r))
    (hr : st.rptr + 1 ≠ st.flen) (v : UInt) (hv : convertLine rnd st.ftype st.numbits t = .ok v) :
    ∃ st', fileGet rnd file st = .ok (v, st') ∧ st'.fp = some r := by
  have hf : fgets (t ++ r) = some (t, r) := by
    rw [fgets, if_neg (by intro e; rw [(List.append_eq_nil_iff.1 e).1] at hl; simp at hl), lineOf_long 1023 t r h hl]
  refine ⟨{ st with fp := some r, rptr := st.rptr + 1, rtot := st.rtot + 1 }, ?_, rfl⟩
  rw [fileGet, hst]
  simp only [hf, hv, Res.bind_ok]
  rw [if_neg hr]
  rfl

/-- The digits `1` 1023 times cannot be read, but 1021 blanks and `12` can: they are 12, even if a digit follows. -/
example : (10 : BitVec 8) ∉ List.replicate 1021 (32 : BitVec 8) ++ [49, 50] ∧ (List.replicate 1021 (32 : BitVec 8) ++ [49, 50]).length = 1023 := by
  refine ⟨?_, by rw [List.length_append, List.length_replicate]; rfl⟩
  rw [List.mem_append, List.mem_replicate]
  decide

/-! ### Header lines that are not settings -/

/-- **C20, a corner.** A header line (not a comment) that does not consist of exactly two fields ends the program, as long as the three
settings are not complete. -/
theorem C20_header_fields (t r : Str) (h0 : 0 ∉ t) (h10 : 10 ∉ t) (hl : t.length ≤ 1022) (hc : t.head? ≠ some 35) (cnt : Nat) (hcnt : cnt < 3)
    (hf : (fields t).length ≠ 2) (fuel : Nat) (st : FileS) (hst : st.fp = some (t ++ 10 :: r)) (hs : st.sbuf.length = PK) :
    headerLoop (fuel + 1) cnt st = .exit := by
  obtain ⟨buf', h1, -⟩ := C52_split t st.sbuf hs
  have hmin : min (fields t).length (PK - 1) ≠ 2 := by
    have : PK = 1024 := rfl
    omega
  rw [headerLoop, if_pos hcnt]
  simp only [hst, fgets_line t r h10 hl]
  have hrd : rd (t ++ [10] ++ [0]) 0 = .ok (t.head?.getD 10) := by
    cases t <;> rfl
  rw [hrd, Res.bind_ok, if_neg (by
    cases ht : t.head? with
    | none => decide
    | some c => rw [ht] at hc; simpa using hc)]
  rw [headerLine, chop_line t h0, Res.bind_ok]
  simp only [h1, Res.bind_ok]
  rw [if_pos hmin]
  rfl

/-- `count: 1 2` has three fields. -/
example : (fields [99, 111, 117, 110, 116, 58, 32, 49, 32, 50]).length = 3 := by decide

/-- Octal and hexadecimal. -/
example : scanUInt 8 [32, 49, 55, 10] = .ok 15 ∧ scanUInt 16 [48, 120, 102, 70, 10] = .ok 255 ∧ scanUInt 10 [45, 49] = .ok (-1) := by
  decide +kernel

end Dh
