import Verif.Proof.FileInput
import Verif.Props.GnuR
/-
C19: numbers written to a file are read back.  C20: ASCII files are delivered cyclically.  C21: raw files are delivered cyclically.
-/
set_option linter.unusedSimpArgs false
namespace Dh

/-! ### Sequences of calls -/

/-- A call: a draw, or seeding with a value. -/
inductive Call where
  | draw
  | seed (s : BitVec 64)

namespace Spec

/-- The number of draws since the last seeding with a nonzero value. -/
def since : Nat → List Call → Nat
  | k, [] => k
  | k, .draw :: cs => since (k + 1) cs
  | k, .seed s :: cs => since (if s = 0 then k else 0) cs

/-- What the draws of a sequence of calls return when draw number `k` since the last seeding with a nonzero value returns `f k`. -/
def outputs (f : Nat → UInt) : Nat → List Call → List UInt
  | _, [] => []
  | k, .draw :: cs => f k :: outputs f (k + 1) cs
  | k, .seed s :: cs => outputs f (if s = 0 then k else 0) cs

end Spec

/-- The calls on a `file_input` generator. -/
def fileCalls (rnd : ℚ → ℚ) (file : Str) : List Call → FileS → Res (List UInt × FileS)
  | [], st => .ok ([], st)
  | .draw :: cs, st => do
    let (v, st) ← fileGet rnd file st
    let (vs, st) ← fileCalls rnd file cs st
    .ok (v :: vs, st)
  | .seed s :: cs, st => do
    let st ← fileSet file s st
    fileCalls rnd file cs st

/-- The calls on a `file_input_raw` generator. -/
def rawCalls (file : Str) : List Call → RawS → Res (List UInt × RawS)
  | [], st => .ok ([], st)
  | .draw :: cs, st => do
    let (v, st) ← rawGet file st
    let (vs, st) ← rawCalls file cs st
    .ok (v :: vs, st)
  | .seed s :: cs, st => do
    let st ← rawSet file s st
    rawCalls file cs st

/-! ### ASCII files -/

/-- The state of a `file_input` generator after `k` draws: `rests j` is what follows the first `j` values. -/
structure FileAt (rests : Nat → Str) (n : Nat) (ty : BitVec 8) (nb : Nat) (k : Nat) (st : FileS) : Prop where
  fp : st.fp = some (rests (k % n))
  rptr : st.rptr = (k % n : Nat)
  rtot : st.rtot = k
  rewindCnt : st.rewindCnt = BitVec.ofNat 32 (k / n)
  flen : st.flen = n
  ftype : st.ftype = ty
  numbits : st.numbits = nb
  sbuf : st.sbuf.length = PK

section Ascii
variable (rnd : ℚ → ℚ) {items : List Spec.HItem} {ty : BitVec 8} {n nb : Nat} (h : Spec.Header items ty n nb)
  (hn : 0 < n) (hn2 : n < 2 ^ 31) (hb : nb < 2 ^ 31) (rests : Nat → Str) (file : Str)
  (hfile : file = (items.map Spec.HItem.text).flatten ++ rests 0)
include h hn hn2 hb hfile

theorem items_length : items.length < file.length + 1 := by
  have : ∀ l : List Spec.HItem, l.length ≤ ((l.map Spec.HItem.text).flatten).length := by
    intro l
    induction l with
    | nil => simp
    | cons i l ih =>
      rw [List.map_cons, List.flatten_cons, List.length_append, List.length_cons]
      have : 0 < i.text.length := by cases i <;> simp [Spec.HItem.text]
      omega
  have := this items
  rw [hfile, List.length_append]
  omega

/-- Reading the header puts the stream before the first value. -/
theorem file_header (st : FileS) (hfp : st.fp = some file) (hl : st.sbuf.length = PK) :
    ∃ st', headerLoop (file.length + 1) 0 st = .ok st' ∧ st'.fp = some (rests 0) ∧ SameRest st st' ∧
      st'.sbuf.length = PK ∧ st'.ftype = ty ∧ st'.flen = n ∧ st'.numbits = nb :=
  headerLoop_header h hn2 hb (file.length + 1) st (rests 0) (by rw [hfp, ← hfile]) hl (items_length h hn hn2 hb rests file hfile)

theorem fileSet_zero {k : Nat} {st : FileS} (hs : FileAt rests n ty nb k st) : fileSet file 0 st = .ok st := by
  have := Nat.mod_lt k hn
  rw [fileSet]
  simp only [ne_eq, not_true_eq_false, and_false, if_false]
  rw [if_neg (by rw [hs.fp]; simp), if_neg (by rw [hs.rptr, hs.flen]; omega)]

theorem fileSet_open (st : FileS) (hl : st.sbuf.length = PK) (s : BitVec 64) (hz : s ≠ 0 ∨ (st.fp = none ∧ st.rtot = 0 ∧ st.rewindCnt = 0)) :
    ∃ st', fileSet file s st = .ok st' ∧ FileAt rests n ty nb 0 st' := by
  have key : ∃ st0 : FileS, fileSet file s st = headerLoop (file.length + 1) 0 st0 ∧ st0.fp = some file ∧ st0.sbuf.length = PK ∧
      st0.rptr = 0 ∧ st0.rtot = 0 ∧ st0.rewindCnt = 0 := by
    rw [fileSet]
    by_cases h0 : s = 0
    · obtain ⟨z1, z2, z3⟩ := hz.resolve_left (by simp [h0])
      simp only [h0, ne_eq, not_true_eq_false, and_false, if_false, z1, if_true]
      exact ⟨_, rfl, rfl, hl, rfl, z2, z3⟩
    · by_cases hf : st.fp = none
      · simp only [hf, h0, ne_eq, not_true_eq_false, false_and, if_false, if_true, not_false_eq_true]
        exact ⟨_, rfl, rfl, hl, rfl, rfl, rfl⟩
      · simp only [hf, h0, ne_eq, not_false_eq_true, and_self, if_true]
        exact ⟨_, rfl, rfl, hl, rfl, rfl, rfl⟩
  obtain ⟨st0, e0, b1, b2, b3, b4, b5⟩ := key
  obtain ⟨st', e, a1, ⟨a2, a3, a4⟩, a5, a6, a7, a8⟩ := file_header h hn hn2 hb rests file hfile st0 b1 b2
  exact ⟨st', by rw [e0, e], ⟨by rw [Nat.zero_mod]; exact a1, by rw [a2, b3, Nat.zero_mod]; rfl, by rw [a3, b4]; rfl,
    by rw [a4, b5, Nat.zero_div]; rfl, a7, a6, a8, a5⟩⟩

theorem fileGet_step (lines : Nat → Str) (vals : Nat → UInt) (hline : ∀ j < n, ∃ t, lines j = t ++ [10] ∧ 10 ∉ t ∧ t.length ≤ 1022)
    (hconv : ∀ j < n, convertLine rnd ty nb (lines j) = .ok (vals j)) (hrest : ∀ j < n, rests j = lines j ++ rests (j + 1))
    {k : Nat} {st : FileS} (hs : FileAt rests n ty nb k st) :
    ∃ st', fileGet rnd file st = .ok (vals (k % n), st') ∧ FileAt rests n ty nb (k + 1) st' := by
  have hk := Nat.mod_lt k hn
  obtain ⟨t, e1, e2, e3⟩ := hline _ hk
  have hf : fgets (rests (k % n)) = some (lines (k % n), rests (k % n + 1)) := by
    rw [hrest _ hk, e1, List.append_assoc]
    exact fgets_line t _ e2 e3
  rw [fileGet]
  simp only [hs.fp, hf, hs.ftype, hs.numbits, hconv _ hk, Res.bind_ok]
  by_cases hlast : k % n + 1 = n
  · have hk1 : (k + 1) % n = 0 := by
      have := Nat.div_add_mod k n
      have h2 : k + 1 = n * (k / n + 1) := by rw [Nat.mul_add]; omega
      rw [h2, Nat.mul_mod_right]
    have hk2 : (k + 1) / n = k / n + 1 := by
      have := Nat.div_add_mod k n
      have h2 : k + 1 = n * (k / n + 1) := by rw [Nat.mul_add]; omega
      rw [h2, Nat.mul_div_cancel_left _ hn]
    rw [if_pos (by rw [hs.rptr, hs.flen]; omega), fileSet]
    simp only [ne_eq, not_true_eq_false, and_false, if_false]
    rw [if_neg (by simp), if_pos (by rw [hs.rptr, hs.flen]; omega)]
    obtain ⟨st', e, a1, ⟨a2, a3, a4⟩, a5, a6, a7, a8⟩ := file_header h hn hn2 hb rests file hfile
      { st with fp := some file, rptr := 0, rtot := st.rtot + 1, rewindCnt := st.rewindCnt + 1, ftype := ty, numbits := nb } rfl hs.sbuf
    simp only [e, Res.bind_ok]
    refine ⟨st', rfl, ⟨by rw [hk1]; exact a1, ?_, ?_, ?_, a7, a6, a8, a5⟩⟩
    · rw [a2, hk1]; rfl
    · rw [a3]; show st.rtot + 1 = _; rw [hs.rtot]; push_cast; rfl
    · rw [a4]; show st.rewindCnt + 1 = _; rw [hs.rewindCnt, hk2]
      apply BitVec.eq_of_toNat_eq
      simp [BitVec.toNat_add]
  · have hk1 : (k + 1) % n = k % n + 1 := by
      rw [Nat.add_mod, Nat.mod_eq_of_lt (show 1 < n by omega), Nat.mod_eq_of_lt (show k % n + 1 < n by omega)]
    have hk2 : (k + 1) / n = k / n := by
      have := Nat.div_add_mod k n
      have h2 : k + 1 = n * (k / n) + (k % n + 1) := by omega
      rw [h2, Nat.mul_add_div hn, Nat.div_eq_of_lt (show k % n + 1 < n by omega), Nat.add_zero]
    rw [if_neg (by rw [hs.rptr, hs.flen]; omega)]
    refine ⟨_, rfl, ⟨by rw [hk1], ?_, ?_, by rw [hk2]; exact hs.rewindCnt, hs.flen, rfl, rfl, hs.sbuf⟩⟩
    · show st.rptr + 1 = _; rw [hs.rptr, hk1]; push_cast; rfl
    · show st.rtot + 1 = _; rw [hs.rtot]; push_cast; rfl

theorem fileCalls_spec (lines : Nat → Str) (vals : Nat → UInt) (hline : ∀ j < n, ∃ t, lines j = t ++ [10] ∧ 10 ∉ t ∧ t.length ≤ 1022)
    (hconv : ∀ j < n, convertLine rnd ty nb (lines j) = .ok (vals j)) (hrest : ∀ j < n, rests j = lines j ++ rests (j + 1)) :
    ∀ (cs : List Call) (k : Nat) (st : FileS), FileAt rests n ty nb k st →
      ∃ st', fileCalls rnd file cs st = .ok (Spec.outputs (fun k => vals (k % n)) k cs, st') ∧ FileAt rests n ty nb (Spec.since k cs) st'
  | [], k, st, hs => ⟨st, rfl, hs⟩
  | .draw :: cs, k, st, hs => by
    obtain ⟨st1, e1, h1⟩ := fileGet_step rnd h hn hn2 hb rests file hfile lines vals hline hconv hrest hs
    obtain ⟨st2, e2, h2⟩ := fileCalls_spec lines vals hline hconv hrest cs (k + 1) st1 h1
    refine ⟨st2, ?_, h2⟩
    rw [fileCalls, e1]
    simp only [Res.bind_ok, e2]
    rfl
  | .seed s :: cs, k, st, hs => by
    by_cases h0 : s = 0
    · subst h0
      obtain ⟨st2, e2, h2⟩ := fileCalls_spec lines vals hline hconv hrest cs k st hs
      refine ⟨st2, ?_, ?_⟩
      · rw [fileCalls, fileSet_zero h hn hn2 hb rests file hfile hs]
        simp only [Res.bind_ok, e2]
        rfl
      · exact h2
    · obtain ⟨st1, e1, h1⟩ := fileSet_open h hn hn2 hb rests file hfile st hs.sbuf s (Or.inl h0)
      obtain ⟨st2, e2, h2⟩ := fileCalls_spec lines vals hline hconv hrest cs 0 st1 h1
      refine ⟨st2, ?_, ?_⟩
      · rw [fileCalls, e1]
        simp only [Res.bind_ok, e2, Spec.outputs, if_neg h0]
      · rw [Spec.since, if_neg h0]; exact h2

end Ascii

theorem rests_step (lines : List Str) (extra : Str) (j : Nat) (h : j < lines.length) :
    (lines.drop j).flatten ++ extra = lines.getD j [] ++ ((lines.drop (j + 1)).flatten ++ extra) := by
  rw [List.drop_eq_getElem_cons h, List.flatten_cons, List.append_assoc, List.getD, List.getElem?_eq_getElem h]
  rfl

theorem forall₂_getD {α β : Type} {R : α → β → Prop} {l : List α} {m : List β} (h : List.Forall₂ R l m) (a : α) (b : β) :
    ∀ j < l.length, R (l.getD j a) (m.getD j b) := by
  induction h with
  | nil => intro j hj; simp at hj
  | cons h1 _ ih =>
    intro j hj
    cases j with
    | zero => exact h1
    | succ j => exact ih j (by simpa using hj)

theorem report_eq (n k : Nat) (hn : 0 < n) (hk : k < n * 2 ^ 32) :
    (rewindReport (BitVec.ofNat 32 (k / n)) (k % n : Nat)).toNat = (k - 1) / n := by
  have hq : k / n < 2 ^ 32 := Nat.div_lt_of_lt_mul (by rw [Nat.mul_comm] at hk ⊢; omega)
  have hd := Nat.div_add_mod k n
  have hm := Nat.mod_lt k hn
  have ht : (BitVec.ofNat 32 (k / n)).toNat = k / n := by rw [BitVec.toNat_ofNat, Nat.mod_eq_of_lt hq]
  unfold rewindReport
  by_cases h0 : k % n = 0
  · by_cases h1 : k / n = 0
    · rw [if_neg (by simp [h1]), ht, h1]
      have : k = 0 := by rw [h0, h1] at hd; omega
      subst this; simp
    · have hne : BitVec.ofNat 32 (k / n) ≠ 0 := by
        intro e
        have := congrArg BitVec.toNat e
        rw [ht] at this
        exact h1 (by simpa using this)
      rw [if_pos ⟨hne, by rw [h0]; rfl⟩, BitVec.toNat_sub, ht]
      have : (k - 1) / n = k / n - 1 := by
        obtain ⟨q, hq'⟩ : ∃ q, k / n = q + 1 := ⟨k / n - 1, by omega⟩
        have e : k - 1 = n * q + (n - 1) := by rw [hq', h0, Nat.mul_add] at hd; omega
        rw [e, Nat.mul_add_div hn, Nat.div_eq_of_lt (show n - 1 < n by omega), hq']
        rfl
      rw [this]
      simp
      omega
  · rw [if_neg (by intro h; exact h0 (by have := h.2; omega)), ht]
    have e : k - 1 = n * (k / n) + (k % n - 1) := by omega
    rw [e, Nat.mul_add_div hn, Nat.div_eq_of_lt (show k % n - 1 < n by omega)]
    rw [Nat.add_zero]

/-- Files whose lines are convertible. -/
theorem file_any (rnd : ℚ → ℚ) {items : List Spec.HItem} {ty : BitVec 8} {n nb : Nat} (h : Spec.Header items ty n nb) (hn : 0 < n)
    (hn2 : n < 2 ^ 31) (hb : nb < 2 ^ 31) (lines : List Str) (vals : List UInt) (hlen : lines.length = n)
    (hline : ∀ j < n, ∃ t, lines.getD j [] = t ++ [10] ∧ 10 ∉ t ∧ t.length ≤ 1022)
    (hconv : ∀ j < n, convertLine rnd ty nb (lines.getD j []) = .ok (vals.getD j 0)) (extra : Str)
    (ty₀ : BitVec 8) (nb₀ : Int) (sbuf : List (List (BitVec 8))) (hl : sbuf.length = PK) (s₀ : BitVec 64) (cs : List Call) :
    ∃ st₀ st, fileSet ((items.map Spec.HItem.text).flatten ++ (lines.flatten ++ extra)) s₀ (fileAlloc ty₀ nb₀ sbuf) = .ok st₀ ∧
      fileCalls rnd ((items.map Spec.HItem.text).flatten ++ (lines.flatten ++ extra)) cs st₀ =
        .ok (Spec.outputs (fun k => vals.getD (k % n) 0) 0 cs, st) ∧
      st.rtot = Spec.since 0 cs ∧
      (Spec.since 0 cs < n * 2 ^ 32 → (rewindReport st.rewindCnt st.rptr).toNat = (Spec.since 0 cs - 1) / n) := by
  obtain ⟨st0, e0, h0⟩ := fileSet_open h hn hn2 hb (fun j => (lines.drop j).flatten ++ extra)
    ((items.map Spec.HItem.text).flatten ++ (lines.flatten ++ extra)) (by simp) (fileAlloc ty₀ nb₀ sbuf) hl s₀ (Or.inr ⟨rfl, rfl, rfl⟩)
  obtain ⟨st, e, hs⟩ := fileCalls_spec rnd h hn hn2 hb (fun j => (lines.drop j).flatten ++ extra)
    ((items.map Spec.HItem.text).flatten ++ (lines.flatten ++ extra)) (by simp) (fun j => lines.getD j []) (fun j => vals.getD j 0)
    hline hconv (fun j hj => rests_step lines extra j (by omega)) cs 0 st0 h0
  refine ⟨st0, st, e0, e, hs.rtot, fun hk => ?_⟩
  rw [hs.rewindCnt, hs.rptr]
  exact report_eq n _ hn hk

/-- C20.  A file with a header of `n` unsigned decimal numbers, `n` lines of them and anything after that, opened by `gsl_rng_alloc` or
by seeding.  Whatever draws and seedings follow, draw number `k` since the last seeding with a nonzero value returns number
`k` mod `n` of the file (seeding with zero changes nothing), the total is the number of those draws, and the reported number of rewinds is
the number of passes that were completed and gone beyond. -/
theorem C20_ascii (rnd : ℚ → ℚ) {items : List Spec.HItem} {ty : BitVec 8} {n nb : Nat} (h : Spec.Header items ty n nb)
    (hty : ty = 100 ∨ ty = 105 ∨ ty = 117) (hn : 0 < n) (hn2 : n < 2 ^ 31) (hb : nb < 2 ^ 31) (lines : List Str) (vals : List UInt)
    (hv : List.Forall₂ Spec.ValueLine lines vals) (hlen : lines.length = n) (extra : Str)
    (ty₀ : BitVec 8) (nb₀ : Int) (sbuf : List (List (BitVec 8))) (hl : sbuf.length = PK) (s₀ : BitVec 64) (cs : List Call) :
    ∃ st₀ st, fileSet ((items.map Spec.HItem.text).flatten ++ (lines.flatten ++ extra)) s₀ (fileAlloc ty₀ nb₀ sbuf) = .ok st₀ ∧
      fileCalls rnd ((items.map Spec.HItem.text).flatten ++ (lines.flatten ++ extra)) cs st₀ =
        .ok (Spec.outputs (fun k => vals.getD (k % n) 0) 0 cs, st) ∧
      st.rtot = Spec.since 0 cs ∧
      (Spec.since 0 cs < n * 2 ^ 32 → (rewindReport st.rewindCnt st.rptr).toNat = (Spec.since 0 cs - 1) / n) := by
  have hv' := forall₂_getD hv [] 0
  refine file_any rnd h hn hn2 hb lines vals hlen (fun j hj => (hv' j (by omega)).line) (fun j hj => ?_) extra ty₀ nb₀ sbuf hl s₀ cs
  rw [convertLine, if_pos hty]
  exact (hv' j (by omega)).scan

theorem outputs_draws (f : Nat → UInt) : ∀ m k : Nat, Spec.outputs f k (List.replicate m .draw) = (List.range' k m).map f
  | 0, k => rfl
  | m + 1, k => by rw [List.replicate_succ, Spec.outputs, outputs_draws f m, List.range'_succ, List.map_cons]

/-! ### C19 -/

/-- The header written by `output_rnds` is a header. -/
theorem outHeader_items (name : Str) (seed : Nat) (ty : BitVec 8) (count : Nat) : ∃ items : List Spec.HItem,
    (items.map Spec.HItem.text).flatten = outHeader name seed ty count ∧
    (10 ∉ name → name.length ≤ 900 → seed < 2 ^ 64 → count < 2 ^ 31 → ty ≠ 0 → isDelim ty = false → Spec.Header items ty count 32) := by
  refine ⟨[.comment (List.replicate 66 61), .comment ([32, 103, 101, 110, 101, 114, 97, 116, 111, 114, 32] ++ name ++
    [32, 32, 115, 101, 101, 100, 32, 61, 32] ++ decStr seed), .comment (List.replicate 66 61), .type ty, .count (decStr count),
    .numbit [51, 50]], ?_, ?_⟩
  · simp [Spec.HItem.text, outHeader, ruleLine]
  · intro h1 h2 h3 h4 h5 h6
    have hs := decStr_decimal seed
    have hls := decStr_length seed 20 (by omega) (by omega)
    refine ⟨?_, ⟨h5, h6⟩, ⟨decStr count, [51, 50], decStr_decimal count, ?_, ⟨[3, 2], by simp, by simp, rfl, rfl⟩, by simp, ?_⟩, ?_⟩
    · intro t ht
      simp only [List.mem_cons, Spec.HItem.comment.injEq, reduceCtorEq, List.not_mem_nil, or_false, false_or] at ht
      rcases ht with rfl | rfl | rfl
      · decide
      · constructor
        · have := hs.notMem (c := 10) (by decide)
          simp only [List.mem_append, not_or]
          exact ⟨⟨⟨by decide, h1⟩, by decide⟩, this⟩
        · simp; omega
      · decide
    · have := decStr_length count 10 (by omega) (by omega)
      omega
    · exact List.Perm.refl _
    · exact ⟨[.comment (List.replicate 66 61), .comment ([32, 103, 101, 110, 101, 114, 97, 116, 111, 114, 32] ++ name ++
        [32, 32, 115, 101, 101, 100, 32, 61, 32] ++ decStr seed), .comment (List.replicate 66 61), .type ty, .count (decStr count)],
        .numbit [51, 50], rfl, rfl⟩

/-- C19, unsigned integers.  Between 1 and `2^31 - 1` values written with `-O 1` and read with `file_input` come back unchanged and in
order. -/
theorem C19_uint (rnd : ℚ → ℚ) (name : Str) (h1 : 10 ∉ name) (h2 : name.length ≤ 900) (seed : Nat) (h3 : seed < 2 ^ 64) (vs : List UInt)
    (h4 : 0 < vs.length) (h5 : vs.length < 2 ^ 31) (ty₀ : BitVec 8) (nb₀ : Int) (sbuf : List (List (BitVec 8))) (hl : sbuf.length = PK)
    (s₀ : BitVec 64) :
    ∃ st₀ st, fileSet (outUInt name seed vs) s₀ (fileAlloc ty₀ nb₀ sbuf) = .ok st₀ ∧
      fileCalls rnd (outUInt name seed vs) (List.replicate vs.length .draw) st₀ = .ok (vs, st) := by
  obtain ⟨items, e, hh⟩ := outHeader_items name seed 100 vs.length
  have hv : List.Forall₂ Spec.ValueLine (vs.map fun v => pad10 (decStr v.toNat) ++ [10]) vs := by
    rw [List.forall₂_map_left_iff, List.forall₂_same]
    intro v _
    have hl := decStr_length v.toNat 10 (by omega) (by have := v.isLt; omega)
    refine ⟨by rw [pad10]; simp; omega, List.replicate (10 - (decStr v.toNat).length) 32, decStr v.toNat, rfl, ?_, decStr_decimal _⟩
    intro c hc
    exact Or.inl (List.mem_replicate.1 hc).2
  obtain ⟨st₀, st, a1, a2, -⟩ := C20_ascii rnd (hh h1 h2 h3 h5 (by decide) (by decide)) (Or.inl rfl) h4 h5 (by decide) _ vs hv (by simp) []
    ty₀ nb₀ sbuf hl s₀ (List.replicate vs.length .draw)
  rw [e, List.append_nil] at a1 a2
  refine ⟨st₀, st, a1, a2.trans ?_⟩
  rw [outputs_draws]
  congr 2
  apply List.ext_getElem (by simp)
  intro i h6 h7
  simp [Nat.mod_eq_of_lt h7, h7]

theorem fixed10_digits (m : Nat) (hm : m ≤ 10 ^ 10) : ∃ fr, fr.length = 10 ∧ Spec.Decimal fr (m % 10 ^ 10) ∧
    fixed10 m = decStr (m / 10 ^ 10) ++ [46] ++ fr := by
  have hl := decStr_length (m % 10 ^ 10) 10 (by omega) (Nat.mod_lt _ (by omega))
  refine ⟨_, ?_, ?_, rfl⟩
  · rw [List.length_append, List.length_replicate]; omega
  · obtain ⟨L, a1, a2, a3, a4⟩ := decStr_decimal (m % 10 ^ 10)
    refine ⟨List.replicate (10 - (decStr (m % 10 ^ 10)).length) 0 ++ L, by simp [a1], ?_, ?_, ?_⟩
    · intro d hd
      rcases List.mem_append.1 hd with h | h
      · rw [(List.mem_replicate.1 h).2]; omega
      · exact a2 d h
    · rw [List.map_append, ← a3, List.map_replicate]; rfl
    · rw [List.reverse_append, List.reverse_replicate, Nat.ofDigits_append_replicate_zero]; exact a4

theorem scan_fixed (rnd : ℚ → ℚ) (m : Nat) (hm : m ≤ 10 ^ 10) :
    scanDouble rnd (cstr (fixed10 m ++ [10])) = .ok (rnd ((m : ℚ) / 10 ^ 10)) := by
  obtain ⟨fr, h1, h2, h3⟩ := fixed10_digits m hm
  have hi := decStr_decimal (m / 10 ^ 10)
  have e : fixed10 m ++ [10] = decStr (m / 10 ^ 10) ++ (46 :: (fr ++ [10])) := by rw [h3]; simp
  have h0 : (0 : BitVec 8) ∉ decStr (m / 10 ^ 10) ++ (46 :: (fr ++ [10])) := by
    simp only [List.mem_append, List.mem_cons, not_or]
    exact ⟨hi.notMem (by decide), by decide, h2.notMem (by decide), by decide, by simp⟩
  rw [e, cstr_of h0]
  unfold scanDouble
  simp only [hi.spaces, hi.sgn, hi.take 46 _ (by decide), hi.drop 46 _ (by decide)]
  rw [scanFrac, if_pos rfl, h2.take 10 [] (by decide), h2.drop 10 [] (by decide)]
  simp only
  rw [if_neg (by simp), if_neg (fun h => hi.ne (List.append_eq_nil_iff.1 h).1), if_neg (by simp), show scanExp [10] = 0 from rfl, digitsVal_append, hi.val, h2.val, h1]
  congr 2
  have := Nat.div_add_mod m (10 ^ 10)
  have h5 : m / 10 ^ 10 * 10 ^ 10 + m % 10 ^ 10 = m := by omega
  rw [h5]
  rw [show (0 : ℤ) - ((10 : Nat) : ℤ) = -10 from rfl, zpow_neg, div_eq_mul_inv]
  rfl

/-- C19 fails for floating point output (`-O 2`).  Numbers from the unit interval, printed with ten digits, are read back as 0, or as
`2^32 - 1` when the digits are those of 1: a factor is applied after the conversion to an integer (rng_file_input.c:126).  `ms` are
the ten-digit roundings. -/
theorem C19_float_fails (rnd : ℚ → ℚ) (hr : Spec.Rounding rnd) (name : Str) (h1 : 10 ∉ name) (h2 : name.length ≤ 900) (seed : Nat)
    (h3 : seed < 2 ^ 64) (ms : List Nat) (h4 : 0 < ms.length) (h5 : ms.length < 2 ^ 31) (hm : ∀ m ∈ ms, m ≤ 10 ^ 10) (ty₀ : BitVec 8)
    (nb₀ : Int) (sbuf : List (List (BitVec 8))) (hl : sbuf.length = PK) (s₀ : BitVec 64) :
    ∃ st₀ st, fileSet (outFloat name seed ms) s₀ (fileAlloc ty₀ nb₀ sbuf) = .ok st₀ ∧
      fileCalls rnd (outFloat name seed ms) (List.replicate ms.length .draw) st₀ =
        .ok (ms.map (fun m => if m < 10 ^ 10 then 0 else 0xffffffff#32), st) := by
  obtain ⟨items, e, hh⟩ := outHeader_items name seed 102 ms.length
  have hget : ∀ j (hj : j < ms.length), (ms.map fun m => fixed10 m ++ [10]).getD j [] = fixed10 ms[j] ++ [10] := by
    intro j hj
    simp [List.getD, hj]
  obtain ⟨st₀, st, a1, a2, -⟩ := file_any rnd (hh h1 h2 h3 h5 (by decide) (by decide)) h4 h5 (by decide) (ms.map fun m => fixed10 m ++ [10])
    (ms.map (fun m => if m < 10 ^ 10 then 0 else 0xffffffff#32)) (by simp) (fun j hj => by
      rw [hget j hj]
      refine ⟨_, rfl, ?_, ?_⟩
      · obtain ⟨fr, -, b2, b3⟩ := fixed10_digits ms[j] (hm _ (List.getElem_mem hj))
        rw [b3]
        simp only [List.mem_append, not_or]
        exact ⟨⟨(decStr_decimal _).notMem (by decide), by decide⟩, b2.notMem (by decide)⟩
      · obtain ⟨fr, b1, b2, b3⟩ := fixed10_digits ms[j] (hm _ (List.getElem_mem hj))
        rw [b3]
        have := decStr_length (ms[j] / 10 ^ 10) 10 (by omega) (by have := hm _ (List.getElem_mem hj); omega)
        rw [List.length_append, List.length_append, b1, List.length_singleton]; omega) (fun j hj => by
      have hmj := hm _ (List.getElem_mem hj)
      rw [hget j hj, convertLine, if_neg (by decide), if_pos (by decide), scan_fixed rnd _ hmj]
      simp only [Res.bind_ok, List.getD, List.getElem?_map, List.getElem?_eq_getElem hj, Option.map_some, Option.getD_some]
      generalize ms[j] = m at hmj
      by_cases hlt : m < 10 ^ 10
      · have hq : (m : ℚ) / 10 ^ 10 ≤ (2 ^ 53 - 1 : ℤ) / 2 ^ 53 := by
          rw [div_le_div_iff₀ (by norm_num) (by norm_num)]
          have : (m : ℚ) ≤ 10 ^ 10 - 1 := by
            have : m + 1 ≤ 10 ^ 10 := hlt
            have : ((m + 1 : Nat) : ℚ) ≤ ((10 ^ 10 : Nat) : ℚ) := by exact_mod_cast this
            push_cast at this; linarith
          push_cast; nlinarith
        have hup := hr.mono _ _ hq
        rw [hr.exact (2 ^ 53 - 1) (by norm_num) 53 (by norm_num)] at hup
        have hlo := hr.mono 0 ((m : ℚ) / 10 ^ 10) (by positivity)
        rw [hr.zero] at hlo
        have hup2 : rnd ((m : ℚ) / 10 ^ 10) < 1 := lt_of_le_of_lt hup (by norm_num)
        rw [toUInt, if_pos ⟨by linarith, by linarith⟩, if_pos hlo, if_pos hlt]
        have : ⌊rnd ((m : ℚ) / 10 ^ 10)⌋ = 0 := by rw [Int.floor_eq_zero_iff]; exact ⟨hlo, hup2⟩
        rw [this]
        rfl
      · have : m = 10 ^ 10 := by omega
        subst this
        have : ((10 ^ 10 : Nat) : ℚ) / 10 ^ 10 = 1 := by norm_num
        rw [this, hr.one, toUInt, if_pos (by norm_num), if_pos (by norm_num), if_neg hlt, Int.floor_one]
        rfl) [] ty₀ nb₀ sbuf hl s₀ (List.replicate ms.length .draw)
  rw [e, List.append_nil] at a1 a2
  refine ⟨st₀, st, a1, a2.trans ?_⟩
  rw [outputs_draws]
  congr 2
  apply List.ext_getElem (by simp)
  intro i h6 h7
  have h8 : i < ms.length := by simpa using h7
  simp [Nat.mod_eq_of_lt h8, h8]

/-! ### C21 -/

namespace Spec

/-- Word `j` of a file: four bytes, the least significant first. -/
def word (file : Str) (j : Nat) : UInt :=
  BitVec.ofNat 32 ((file.getD (4 * j) 0).toNat + 256 * (file.getD (4 * j + 1) 0).toNat + 65536 * (file.getD (4 * j + 2) 0).toNat +
    16777216 * (file.getD (4 * j + 3) 0).toNat)

end Spec

/-- The state of a `file_input_raw` generator after `k` draws. -/
structure RawAt (file : Str) (n k : Nat) (st : RawS) : Prop where
  fp : st.fp = some (file.drop (4 * (k % n)))
  rptr : st.rptr = k % n
  rtot : st.rtot = k
  rewindCnt : st.rewindCnt = BitVec.ofNat 32 (k / n)
  flen : st.flen = n
  first : st.first = false

theorem drop_word (file : Str) (j : Nat) (h : 4 * j + 4 ≤ file.length) : file.drop (4 * j) =
    file.getD (4 * j) 0 :: file.getD (4 * j + 1) 0 :: file.getD (4 * j + 2) 0 :: file.getD (4 * j + 3) 0 :: file.drop (4 * (j + 1)) := by
  have g : ∀ i (hi : i < file.length), file.getD i 0 = file[i] := by
    intro i hi; rw [List.getD, List.getElem?_eq_getElem hi]; rfl
  rw [g _ (by omega), g _ (by omega), g _ (by omega), g _ (by omega), List.drop_eq_getElem_cons (show 4 * j < file.length by omega),
    List.drop_eq_getElem_cons (show 4 * j + 1 < file.length by omega), List.drop_eq_getElem_cons (show 4 * j + 1 + 1 < file.length by omega),
    List.drop_eq_getElem_cons (show 4 * j + 1 + 1 + 1 < file.length by omega), show 4 * (j + 1) = 4 * j + 1 + 1 + 1 + 1 by omega]

theorem rawSet_open (file : Str) (h : 64 ≤ file.length) (s : BitVec 64) (st : RawS)
    (hz : (st.first = true ∧ st.rtot = 0 ∧ st.rewindCnt = 0) ∨ (st.first = false ∧ st.flen = file.length / 4 ∧ s ≠ 0)) :
    ∃ st', rawSet file s st = .ok st' ∧ RawAt file (file.length / 4) 0 st' := by
  have hr : ∀ r : RawS, r.fp = some file → r.rptr = 0 → r.rtot = 0 → r.rewindCnt = 0 → r.flen = file.length / 4 → r.first = false →
      RawAt file (file.length / 4) 0 r := fun r a b c d e f =>
    ⟨by rw [a, Nat.zero_mod]; rfl, by rw [b, Nat.zero_mod], c, by rw [d, Nat.zero_div]; rfl, e, f⟩
  rw [rawSet]
  rcases hz with ⟨z1, z2, z3⟩ | ⟨z1, z2, z3⟩
  · rw [z1, if_pos rfl, if_neg (by omega)]
    simp only [Res.bind_ok, ne_eq, not_true_eq_false, false_and, if_false, if_true]
    refine ⟨_, rfl, ?_⟩
    by_cases h0 : s = 0
    · rw [if_neg (by simp [h0])]; exact hr _ rfl rfl z2 z3 rfl rfl
    · rw [if_pos h0]; exact hr _ rfl rfl rfl rfl rfl rfl
  · rw [z1, if_neg (by simp)]
    simp only [Res.bind_ok]
    by_cases hf : st.fp = none
    · simp only [hf, ne_eq, not_true_eq_false, false_and, if_false, if_true]
      exact ⟨_, rfl, by rw [if_pos z3]; exact hr _ rfl rfl rfl rfl z2 z1⟩
    · simp only [hf, z3, ne_eq, not_false_eq_true, and_self, if_true]
      exact ⟨_, rfl, hr _ rfl rfl rfl rfl z2 z1⟩

theorem rawSet_zero (file : Str) (n : Nat) (hn : 0 < n) {k : Nat} {st : RawS} (hs : RawAt file n k st) : rawSet file 0 st = .ok st := by
  have := Nat.mod_lt k hn
  rw [rawSet, hs.first, if_neg (by simp)]
  simp only [Res.bind_ok, ne_eq, not_true_eq_false, and_false, if_false]
  rw [if_neg (by rw [hs.fp]; simp), if_neg (by rw [hs.rptr, hs.flen]; omega)]

theorem rawGet_step (file : Str) (n : Nat) (hn : 0 < n) (h : 4 * n ≤ file.length) {k : Nat} {st : RawS} (hs : RawAt file n k st) :
    ∃ st', rawGet file st = .ok (Spec.word file (k % n), st') ∧ RawAt file n (k + 1) st' := by
  have hk := Nat.mod_lt k hn
  have hd := Nat.div_add_mod k n
  rw [rawGet]
  simp only [hs.fp, drop_word file (k % n) (by omega)]
  by_cases hlast : k % n + 1 = n
  · have h2 : k + 1 = n * (k / n + 1) := by rw [Nat.mul_add]; omega
    have hk1 : (k + 1) % n = 0 := by rw [h2, Nat.mul_mod_right]
    have hk2 : (k + 1) / n = k / n + 1 := by rw [h2, Nat.mul_div_cancel_left _ hn]
    rw [if_pos (by rw [hs.rptr, hs.flen]; omega), rawSet, hs.first]
    simp only [Bool.false_eq_true, if_false, Res.bind_ok, ne_eq, not_true_eq_false, and_false, reduceCtorEq]
    rw [if_pos (by rw [hs.rptr, hs.flen]; omega)]
    refine ⟨_, rfl, ⟨by rw [hk1]; rfl, by rw [hk1], ?_, ?_, hs.flen, rfl⟩⟩
    · show st.rtot + 1 = _; rw [hs.rtot]
    · show st.rewindCnt + 1 = _; rw [hs.rewindCnt, hk2]
      apply BitVec.eq_of_toNat_eq
      simp [BitVec.toNat_add]
  · have h2 : k + 1 = n * (k / n) + (k % n + 1) := by omega
    have hk1 : (k + 1) % n = k % n + 1 := by rw [h2, Nat.mul_add_mod, Nat.mod_eq_of_lt (show k % n + 1 < n by omega)]
    have hk2 : (k + 1) / n = k / n := by
      rw [h2, Nat.mul_add_div hn, Nat.div_eq_of_lt (show k % n + 1 < n by omega), Nat.add_zero]
    rw [if_neg (by rw [hs.rptr, hs.flen]; omega)]
    refine ⟨_, rfl, ⟨by rw [hk1], ?_, ?_, by rw [hk2]; exact hs.rewindCnt, hs.flen, hs.first⟩⟩
    · show st.rptr + 1 = _; rw [hs.rptr, hk1]
    · show st.rtot + 1 = _; rw [hs.rtot]

theorem rawCalls_spec (file : Str) (h : 64 ≤ file.length) : ∀ (cs : List Call) (k : Nat) (st : RawS), RawAt file (file.length / 4) k st →
    ∃ st', rawCalls file cs st = .ok (Spec.outputs (fun k => Spec.word file (k % (file.length / 4))) k cs, st') ∧
      RawAt file (file.length / 4) (Spec.since k cs) st'
  | [], k, st, hs => ⟨st, rfl, hs⟩
  | .draw :: cs, k, st, hs => by
    obtain ⟨st1, e1, h1⟩ := rawGet_step file (file.length / 4) (by omega) (by omega) hs
    obtain ⟨st2, e2, h2⟩ := rawCalls_spec file h cs (k + 1) st1 h1
    refine ⟨st2, ?_, h2⟩
    rw [rawCalls, e1]
    simp only [Res.bind_ok, e2]
    rfl
  | .seed s :: cs, k, st, hs => by
    by_cases h0 : s = 0
    · subst h0
      obtain ⟨st2, e2, h2⟩ := rawCalls_spec file h cs k st hs
      refine ⟨st2, ?_, h2⟩
      rw [rawCalls, rawSet_zero file _ (by omega) hs]
      simp only [Res.bind_ok, e2]
      rfl
    · obtain ⟨st1, e1, h1⟩ := rawSet_open file h s st (Or.inr ⟨hs.first, hs.flen, h0⟩)
      obtain ⟨st2, e2, h2⟩ := rawCalls_spec file h cs 0 st1 h1
      refine ⟨st2, ?_, ?_⟩
      · rw [rawCalls, e1]
        simp only [Res.bind_ok, e2, Spec.outputs, if_neg h0]
      · rw [Spec.since, if_neg h0]; exact h2

/-- C21.  A file of at least 16 words, opened by the first raw generator of the process.  Whatever draws and seedings follow, draw number
`k` since the last seeding with a nonzero value returns word `k` mod `n` of the file, where `n` is its length divided by 4: trailing bytes
are never delivered.  The total is the number of those draws and the reported number of rewinds is the number of passes that were
completed and gone beyond. -/
theorem C21_raw (file : Str) (h : 16 ≤ file.length / 4) (s₀ : BitVec 64) (cs : List Call) :
    ∃ st₀ st, rawSet file s₀ (rawAlloc true) = .ok st₀ ∧
      rawCalls file cs st₀ = .ok (Spec.outputs (fun k => Spec.word file (k % (file.length / 4))) 0 cs, st) ∧
      st.rtot = Spec.since 0 cs ∧
      (Spec.since 0 cs < file.length / 4 * 2 ^ 32 →
        (rewindReport st.rewindCnt st.rptr).toNat = (Spec.since 0 cs - 1) / (file.length / 4)) := by
  obtain ⟨st0, e0, h0⟩ := rawSet_open file (by omega) s₀ (rawAlloc true) (Or.inl ⟨rfl, rfl, rfl⟩)
  obtain ⟨st, e, hs⟩ := rawCalls_spec file (by omega) cs 0 st0 h0
  refine ⟨st0, st, e0, e, hs.rtot, fun hk => ?_⟩
  rw [hs.rewindCnt, hs.rptr]
  exact report_eq _ _ (by omega) hk

/-- C21: shorter files are refused. -/
theorem C21_small (file : Str) (h : file.length / 4 < 16) (s₀ : BitVec 64) : rawSet file s₀ (rawAlloc true) = .exit := by
  rw [rawSet, rawAlloc, if_pos rfl, if_pos h]
  rfl

/-- C21 fails for a second raw generator in the process: the static `first` keeps its length at zero, so that it does not rewind and
the program exits after the last complete word. -/
theorem C21_second_fails (file : Str) (s₀ : BitVec 64) : ∃ st₀, rawSet file s₀ (rawAlloc false) = .ok st₀ ∧
    (∃ st, rawCalls file (List.replicate (file.length / 4) .draw) st₀ = .ok ((List.range (file.length / 4)).map (Spec.word file), st)) ∧
    rawCalls file (List.replicate (file.length / 4 + 1) .draw) st₀ = .exit := by
  have key : ∀ (m k : Nat) (st : RawS), 4 * (k + m) ≤ file.length → st.fp = some (file.drop (4 * k)) → st.flen = 0 →
      ∃ st', (∀ cs, rawCalls file (List.replicate m .draw ++ cs) st =
        (do let (vs, st'') ← rawCalls file cs st'; .ok ((List.range' k m).map (Spec.word file) ++ vs, st''))) ∧
        st'.fp = some (file.drop (4 * (k + m))) := by
    intro m
    induction m with
    | zero => intro k st _ hf hl; exact ⟨st, fun cs => by
        rw [List.replicate_zero, List.nil_append]
        cases rawCalls file cs st <;> rfl, hf⟩
    | succ m ih =>
      intro k st hb hf hl
      obtain ⟨st', e1, e2⟩ := ih (k + 1) { st with fp := some (file.drop (4 * (k + 1))), rptr := st.rptr + 1, rtot := st.rtot + 1 }
        (by omega) rfl hl
      refine ⟨st', fun cs => ?_, by rw [e2]; congr 2; omega⟩
      rw [List.replicate_succ, List.cons_append, rawCalls, rawGet]
      simp only [hf, drop_word file k (by omega)]
      rw [if_neg (by simp [hl])]
      simp only [Res.bind_ok]
      rw [e1 cs]
      cases rawCalls file cs st' <;> rfl
  have open_ : ∃ st₀, rawSet file s₀ (rawAlloc false) = .ok st₀ ∧ st₀.fp = some file ∧ st₀.flen = 0 := by
    rw [rawSet, rawAlloc]
    simp only [Bool.false_eq_true, if_false, Res.bind_ok, ne_eq, not_true_eq_false, false_and, if_true]
    refine ⟨_, rfl, ?_, ?_⟩ <;> split <;> rfl
  obtain ⟨st₀, e, hf, hl⟩ := open_
  obtain ⟨st', e1, e2⟩ := key (file.length / 4) 0 st₀ (by omega) (by rw [hf]; rfl) hl
  refine ⟨st₀, e, ⟨st', ?_⟩, ?_⟩
  · have := e1 []
    rw [List.append_nil] at this
    rw [this, rawCalls]
    simp [List.range_eq_range']
  · rw [List.replicate_succ', e1 [.draw], rawCalls, rawGet, e2]
    have hlen : (file.drop (4 * (0 + file.length / 4))).length < 4 := by rw [List.length_drop]; omega
    generalize file.drop (4 * (0 + file.length / 4)) = r at hlen
    match r, hlen with
    | [], _ => rfl
    | [_], _ => rfl
    | [_, _], _ => rfl
    | [_, _, _], _ => rfl
    | _ :: _ :: _ :: _ :: _, h => simp at h; omega

theorem outRaw_length (vs : List UInt) : (outRaw vs).length = 4 * vs.length := by
  induction vs with
  | nil => rfl
  | cons v vs ih => rw [outRaw, List.map_cons, List.flatten_cons, List.length_append]; rw [outRaw] at ih; rw [ih]; simp; omega

theorem outRaw_word (vs : List UInt) : ∀ j (hj : j < vs.length), Spec.word (outRaw vs) j = vs[j] := by
  induction vs with
  | nil => intro j hj; simp at hj
  | cons v vs ih =>
    intro j hj
    have e : outRaw (v :: vs) = v.extractLsb' 0 8 :: v.extractLsb' 8 8 :: v.extractLsb' 16 8 :: v.extractLsb' 24 8 :: outRaw vs := rfl
    cases j with
    | zero =>
      rw [e, Spec.word]
      apply BitVec.eq_of_toNat_eq
      simp [BitVec.extractLsb'_toNat, Nat.shiftRight_eq_div_pow]
      have := v.isLt
      omega
    | succ j =>
      have := ih j (by simpa using hj)
      rw [List.getElem_cons_succ, ← this, e, Spec.word, Spec.word, show 4 * (j + 1) = 4 * j + 1 + 1 + 1 + 1 by omega]
      rfl

/-- C21: at least 16 values written with `-O 0` and read with `file_input_raw` come back unchanged and in order. -/
theorem C21_round_trip (vs : List UInt) (h : 16 ≤ vs.length) (s₀ : BitVec 64) :
    ∃ st₀ st, rawSet (outRaw vs) s₀ (rawAlloc true) = .ok st₀ ∧
      rawCalls (outRaw vs) (List.replicate vs.length .draw) st₀ = .ok (vs, st) := by
  have hl := outRaw_length vs
  obtain ⟨st₀, st, e, e1, -⟩ := C21_raw (outRaw vs) (by omega) s₀ (List.replicate vs.length .draw)
  refine ⟨st₀, st, e, e1.trans ?_⟩
  rw [outputs_draws, hl, Nat.mul_div_cancel_left _ (by omega)]
  congr 2
  apply List.ext_getElem (by simp)
  intro i h6 h7
  simp [Nat.mod_eq_of_lt h7, outRaw_word vs i h7]

/-! ### Examples -/

/-- `"  17\n"` is a line of data. -/
example : Spec.ValueLine [32, 32, 49, 55, 10] 17 :=
  ⟨by decide, [32, 32], [49, 55], rfl, by decide, [1, 7], by decide, by decide, rfl, rfl⟩
/-- `"count: 2\n# c\ntype: u\nnumbit: 32\n"` is a header. -/
example : Spec.Header [.count [50], .comment [32, 99], .type 117, .numbit [51, 50]] 117 2 32 where
  comments := by intro t ht; simp at ht; subst ht; decide
  letter := by decide
  settings := ⟨[50], [51, 50], ⟨[2], by decide, by decide, rfl, rfl⟩, by decide, ⟨[3, 2], by decide, by decide, rfl, rfl⟩, by decide,
    by decide⟩
  last := ⟨[.count [50], .comment [32, 99], .type 117], .numbit [51, 50], rfl, rfl⟩
/-- Two numbers, five draws with a seeding by 0 and one by 9 among them. -/
example : Spec.outputs (fun k => [10, 20].getD (k % 2) 0) 0 [.draw, .seed 0, .draw, .draw, .seed 9, .draw, .draw] = [10, 20, 10, 10, 20] := by
  decide
example : Spec.since 0 [.draw, .seed 0, .draw, .draw, .seed 9, .draw, .draw] = 2 := by decide
example : outUInt [109] 7 [5] = [35] ++ List.replicate 66 61 ++ [10, 35, 32, 103, 101, 110, 101, 114, 97, 116, 111, 114, 32, 109, 32, 32, 115,
    101, 101, 100, 32, 61, 32, 55, 10, 35] ++ List.replicate 66 61 ++ [10, 116, 121, 112, 101, 58, 32, 100, 10, 99, 111, 117, 110, 116, 58,
    32, 49, 10, 110, 117, 109, 98, 105, 116, 58, 32, 51, 50, 10, 32, 32, 32, 32, 32, 32, 32, 32, 32, 53, 10] := by decide +kernel
/-- `0.0000000005`. -/
example : fixed10 5 = [48, 46, 48, 48, 48, 48, 48, 48, 48, 48, 48, 53] := by decide +kernel
/-- An empty line is not noticed: `sscanf` returns `EOF`, and the number is uninitialised. -/
example : convertLine id 117 32 [10] = .ub := by decide +kernel

end Dh
