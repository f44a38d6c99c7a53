import Mathlib.Tactic.Linarith
import Mathlib.Tactic.Ring
import Mathlib.Tactic.Positivity
import Mathlib.Tactic.FieldSimp
import Mathlib.Data.Nat.Size
import Mathlib.Algebra.Order.Field.Basic
import Verif.Model.Util
import Verif.Proof.Tally
/-
C50: the bit width of a generator.  C52: line splitting.  C53: histogram.
-/
set_option linter.unusedSimpArgs false
namespace Dh

/-! ### C50 -/

theorem rmaxLoop_spec (r : Nat) : ∀ (fuel : Nat) (rmax mask : UInt) (bits : Nat), r < fuel → rmax.toNat.size = r →
    r + bits ≤ 32 → (∀ i, mask.getLsbD i = decide (i < bits)) →
    ∃ mask', rmaxLoop fuel rmax mask bits = .ok (mask', r + bits) ∧ ∀ i, mask'.getLsbD i = decide (i < r + bits) := by
  induction r with
  | zero =>
    intro fuel rmax mask bits hf hs hb hm
    obtain ⟨f, rfl⟩ : ∃ f, fuel = f + 1 := ⟨fuel - 1, by omega⟩
    have h0 : rmax = 0 := by
      apply BitVec.eq_of_toNat_eq
      rw [Nat.size_eq_zero.1 hs]; rfl
    refine ⟨mask, by rw [rmaxLoop, if_pos h0, Nat.zero_add], by rw [Nat.zero_add]; exact hm⟩
  | succ r ih =>
    intro fuel rmax mask bits hf hs hb hm
    obtain ⟨f, rfl⟩ : ∃ f, fuel = f + 1 := ⟨fuel - 1, by omega⟩
    have h0 : rmax ≠ 0 := by
      rintro rfl
      rw [show BitVec.toNat (0 : UInt) = 0 from rfl, Nat.size_zero] at hs
      omega
    have hsz : (rmax >>> 1).toNat.size = r := by
      rw [BitVec.toNat_ushiftRight, Nat.shiftRight_eq_div_pow]
      apply le_antisymm
      · rw [Nat.size_le]
        have := Nat.lt_size_self rmax.toNat
        rw [hs, Nat.pow_succ] at this
        omega
      · by_contra hlt
        rw [Nat.not_le] at hlt
        have h1 := Nat.lt_size_self (rmax.toNat / 2 ^ 1)
        have h2 : 2 ^ ((rmax.toNat / 2 ^ 1).size) * 2 ≤ 2 ^ r := by
          rw [← Nat.pow_succ]; exact Nat.pow_le_pow_right (by omega) hlt
        have h3 : rmax.toNat < 2 ^ r := by omega
        have := Nat.size_le.2 h3
        omega
    have hmask : ∀ i, ((mask <<< 1) + 1).getLsbD i = decide (i < bits + 1) := by
      have hd : (mask <<< 1) &&& (1 : UInt) = 0 := by
        apply BitVec.eq_of_getLsbD_eq
        intro j _
        rw [BitVec.getLsbD_and, BitVec.getLsbD_shiftLeft]
        cases j with
        | zero => simp
        | succ j => simp
      intro i
      rw [BitVec.add_eq_or_of_and_eq_zero _ _ hd, BitVec.getLsbD_or, BitVec.getLsbD_shiftLeft, hm]
      cases i with
      | zero => simp
      | succ i =>
        by_cases hi : i < bits
        · simp [hi]; omega
        · simp [hi]
    obtain ⟨mask', h1, h2⟩ := ih f (rmax >>> 1) ((mask <<< 1) + 1) (bits + 1) (by omega) hsz (by omega) hmask
    refine ⟨mask', ?_, fun i => by rw [h2, show r + 1 + bits = r + (bits + 1) from by omega]⟩
    rw [rmaxLoop, if_neg h0, h1, show r + 1 + bits = r + (bits + 1) from by omega]

/-- **C50.** `rmax_bits` is the number of binary digits of the advertised maximum, the least `r` with `max < 2^r`, and
`rmax_mask` has exactly that many low bits set. -/
theorem C50_bits (max : Nat) (h : max < 2 ^ 32) :
    ∃ mask r, rmaxSetup max = .ok (mask, r) ∧ max < 2 ^ r ∧ (∀ k, max < 2 ^ k → r ≤ k) ∧
      mask.toNat = 2 ^ r - 1 := by
  have hm : (BitVec.ofNat 32 max).toNat = max := by rw [BitVec.toNat_ofNat, Nat.mod_eq_of_lt h]
  have hs : max.size ≤ 32 := Nat.size_le.2 h
  obtain ⟨mask, h1, h2⟩ := rmaxLoop_spec max.size 33 (BitVec.ofNat 32 max) 0 0 (by omega) (by rw [hm]) (by omega)
    (fun i => by simp)
  refine ⟨mask, max.size, h1, Nat.lt_size_self max, fun k hk => Nat.size_le.2 hk, ?_⟩
  apply Nat.eq_of_testBit_eq
  intro i
  rw [BitVec.testBit_toNat, h2, Nat.testBit_two_pow_sub_one, Nat.add_zero]

/-- A maximum of 33 bits or more is cut to its low 32 bits first: a generator with maximum `2^32` gets no bits. -/
theorem C50_truncated (max : Nat) : rmaxSetup max = rmaxSetup (max % 2 ^ 32) := by
  rw [rmaxSetup, rmaxSetup]
  congr 1
  apply BitVec.eq_of_toNat_eq
  rw [BitVec.toNat_ofNat, BitVec.toNat_ofNat, Nat.mod_mod]

example : rmaxSetup (2 ^ 31 - 2) = .ok (0x7fffffff, 31) ∧ rmaxSetup (2 ^ 32 - 1) = .ok (0xffffffff, 32) ∧
    rmaxSetup 16777215 = .ok (0xffffff, 24) ∧ rmaxSetup (2 ^ 32) = .ok (0, 0) := by decide +kernel

/-! ### C52 -/

namespace Spec

/-- The separators of fields: blank, tab, comma, line feed, carriage return, colon. -/
def separators : List Char := [' ', '\t', ',', '\n', '\r', ':']

/-- The fields of a line: its maximal runs of characters that are not separators. -/
def fields (line : Str) : List Str :=
  (line.splitOnP fun c => decide (Char.ofNat c.toNat ∈ separators)).filter (fun f => !f.isEmpty)

end Spec
open Spec

theorem isDelim_eq : isDelim = fun c => decide (Char.ofNat c.toNat ∈ separators) := by
  funext c
  revert c
  decide +kernel

theorem fields_eq (line : Str) : fields line = (line.splitOnP isDelim).filter (fun f => !f.isEmpty) := by
  rw [fields, isDelim_eq]

theorem fields_delim {c : BitVec 8} (h : isDelim c = true) (s : Str) : fields (c :: s) = fields s := by
  rw [fields_eq, List.splitOnP_cons_eq_if_modifyHead, if_pos h, fields_eq]; rfl

theorem fields_dropWhile (s : Str) : fields (s.dropWhile isDelim) = fields s := by
  induction s with
  | nil => rfl
  | cons c s ih =>
    rw [List.dropWhile_cons]
    split
    · next h => rw [ih, fields_delim h]
    · rfl

theorem fields_run (run rest : Str) (hne : run ≠ []) (hr : ∀ x ∈ run, isDelim x = false)
    (hrest : rest = [] ∨ ∃ d t, rest = d :: t ∧ isDelim d = true) :
    fields (run ++ rest) = run :: fields (rest.drop 1) := by
  rcases hrest with rfl | ⟨d, t, rfl, hd⟩
  · rw [List.append_nil, fields_eq, List.splitOnP_eq_singleton hr]
    cases run with
    | nil => exact absurd rfl hne
    | cons a l => rfl
  · rw [fields_eq, List.splitOnP_append_cons_of_forall_mem hr d hd, List.filter_cons, fields_eq]
    cases run with
    | nil => exact absurd rfl hne
    | cons a l => rfl

/-- `strtok` takes the first field and leaves the rest. -/
theorem strtok_spec (s : Str) : (fields s = [] → strtok s = none) ∧
    ∀ f fs, fields s = f :: fs → ∃ rest, strtok s = some (f, rest) ∧ fields rest = fs ∧ rest.length < s.length := by
  rw [← fields_dropWhile s]
  have hlen : (s.dropWhile isDelim).length ≤ s.length := (List.dropWhile_sublist _).length_le
  have hhead : ∀ c t, s.dropWhile isDelim = c :: t → isDelim c = false := by
    intro c t h
    have := List.head?_dropWhile_not isDelim s
    rw [h] at this
    simpa using this
  rw [strtok]
  cases hd : s.dropWhile isDelim with
  | nil =>
    refine ⟨fun _ => rfl, fun f fs h => ?_⟩
    rw [fields] at h; simp at h
  | cons c t =>
    have hc := hhead c t hd
    have hsplit := List.takeWhile_append_dropWhile (p := fun x => !isDelim x) (l := c :: t)
    have htw : (c :: t).takeWhile (fun x => !isDelim x) = c :: t.takeWhile (fun x => !isDelim x) := by
      rw [List.takeWhile_cons, if_pos (by rw [hc]; rfl)]
    have hdw : (c :: t).dropWhile (fun x => !isDelim x) = t.dropWhile (fun x => !isDelim x) := by
      rw [List.dropWhile_cons, if_pos (by rw [hc]; rfl)]
    have hf := fields_run ((c :: t).takeWhile (fun x => !isDelim x)) ((c :: t).dropWhile (fun x => !isDelim x))
      (by rw [htw]; simp)
      (fun x hx => by have := List.all_eq_true.1 List.all_takeWhile x hx; simpa using this)
      (by
        cases h : (c :: t).dropWhile (fun x => !isDelim x) with
        | nil => exact Or.inl rfl
        | cons d u =>
          refine Or.inr ⟨d, u, rfl, ?_⟩
          have := List.head?_dropWhile_not (fun x => !isDelim x) (c :: t)
          rw [h] at this
          simpa using this)
    rw [hsplit] at hf
    refine ⟨fun h => by rw [hf] at h; simp at h, fun f fs h => ?_⟩
    rw [hf] at h
    injection h with h1 h2
    refine ⟨_, by simp only [h1], h2, ?_⟩
    rw [hd] at hlen
    rw [List.length_drop, hdw]
    have : (t.dropWhile (fun x => !isDelim x)).length ≤ t.length := (List.dropWhile_sublist _).length_le
    rw [List.length_cons] at hlen
    omega

/-- `buf'` is `buf` with `fs` stored from entry `i` on, then a zeroed entry. -/
structure Stored (buf : List (List (BitVec 8))) (i : Nat) (fs : List Str) (buf' : List (List (BitVec 8))) : Prop where
  len : buf'.length = buf.length
  get : ∀ k < fs.length, buf'.getD (i + k) [] = strncpyBuf (fs.getD k [])
  last : buf'.getD (i + fs.length) [] = List.replicate PBUF 0
  other : ∀ k, k < i ∨ i + fs.length < k → buf'.getD k [] = buf.getD k []

theorem splitLoop_spec : ∀ (fuel : Nat) (s : Str) (i : Nat) (buf : List (List (BitVec 8))), s.length < fuel → i < PK →
    buf.length = PK →
    ∃ buf', splitLoop fuel s i buf = .ok (i + min (fields s).length (PK - 1 - i), buf') ∧
      Stored buf i ((fields s).take (PK - 1 - i)) buf'
  | 0, s, i, buf, hf, _, _ => by omega
  | fuel + 1, s, i, buf, hf, hi, hl => by
    have hil : i < buf.length := by omega
    have hstop : Stored buf i [] (buf.set i (List.replicate PBUF 0)) :=
      ⟨by rw [List.length_set], fun k hk => absurd hk (by simp), by
        rw [List.length_nil, Nat.add_zero, getD_set _ i _ _ hil, if_pos rfl], fun k hk => by
        rw [List.length_nil] at hk
        rw [getD_set _ i _ _ hil, if_neg (by omega)]⟩
    rw [splitLoop]
    by_cases hi' : i < PK - 1
    · rw [if_pos hi']
      obtain ⟨h1, h2⟩ := strtok_spec s
      cases hfs : fields s with
      | nil =>
        rw [h1 hfs]
        refine ⟨buf.set i (List.replicate PBUF 0), ?_, by rw [List.take_nil]; exact hstop⟩
        simp only [wr, if_pos hil, Res.bind_ok, Res.pure_eq, List.length_nil, Nat.zero_min, Nat.add_zero]
      | cons f fs =>
        obtain ⟨rest, ha, hb, hc⟩ := h2 f fs hfs
        rw [ha]
        obtain ⟨buf', hd, he⟩ := splitLoop_spec fuel rest (i + 1) (buf.set i (strncpyBuf f)) (by omega) (by omega)
          (by rw [List.length_set, hl])
        rw [hb] at hd he
        refine ⟨buf', ?_, ?_⟩
        · simp only [wr, if_pos hil, Res.bind_ok]
          rw [hd, List.length_cons]
          congr 2
          omega
        · have ek : PK - 1 - i = (PK - 1 - (i + 1)) + 1 := by omega
          rw [ek, List.take_succ_cons]
          refine ⟨by rw [he.len, List.length_set], fun k hk => ?_, ?_, fun k hk => ?_⟩
          · cases k with
            | zero =>
              rw [Nat.add_zero, List.getD_cons_zero, he.other i (Or.inl (by omega)), getD_set _ i _ _ hil, if_pos rfl]
            | succ k =>
              rw [List.getD_cons_succ, ← he.get k (by simpa using hk), show i + (k + 1) = i + 1 + k from by omega]
          · rw [List.length_cons, ← he.last]
            congr 1; omega
          · rw [List.length_cons] at hk
            rw [he.other k (by omega), getD_set _ i _ _ hil, if_neg (by omega)]
    · rw [if_neg hi']
      have e0 : PK - 1 - i = 0 := by omega
      rw [e0, List.take_zero, Nat.min_zero, Nat.add_zero]
      exact ⟨buf.set i (List.replicate PBUF 0), by simp only [wr, if_pos hil, Res.bind_ok, Res.pure_eq], hstop⟩

/-- **C52**, what `split` does: it returns the number of fields, but at most 1023, stores that many fields in order,
each cut to 128 characters, and zeroes the entry after the last one.  A line without fields changes nothing. -/
theorem C52_split (line : Str) (buf : List (List (BitVec 8))) (hl : buf.length = PK) :
    ∃ buf', split line buf = .ok (min (fields line).length (PK - 1), buf') ∧
      (fields line = [] → buf' = buf) ∧ (fields line ≠ [] → Stored buf 0 ((fields line).take (PK - 1)) buf') := by
  have hil : 0 < buf.length := by rw [hl]; decide
  have hPK : PK = 1024 := rfl
  obtain ⟨h1, h2⟩ := strtok_spec line
  rw [split]
  cases hfs : fields line with
  | nil =>
    rw [h1 hfs]
    exact ⟨buf, by simp, fun _ => rfl, fun h => absurd rfl h⟩
  | cons f fs =>
    obtain ⟨rest, ha, hb, hc⟩ := h2 f fs hfs
    rw [ha]
    obtain ⟨buf', hd, he⟩ := splitLoop_spec (line.length + 1) rest 1 (buf.set 0 (strncpyBuf f)) (by omega) (by omega)
      (by rw [List.length_set, hl])
    rw [hb] at hd he
    refine ⟨buf', ?_, fun h => absurd h (by simp), fun _ => ?_⟩
    · simp only [wr, if_pos hil, Res.bind_ok]
      rw [hd, List.length_cons]
      congr 2
      omega
    · have ek : PK - 1 = (PK - 1 - 1) + 1 := by omega
      rw [ek, List.take_succ_cons]
      refine ⟨by rw [he.len, List.length_set], fun k hk => ?_, ?_, fun k hk => ?_⟩
      · cases k with
        | zero =>
          rw [List.getD_cons_zero, he.other 0 (Or.inl (by omega)), getD_set _ 0 _ _ hil, if_pos rfl]
        | succ k =>
          rw [List.getD_cons_succ, ← he.get k (by simpa using hk), show 0 + (k + 1) = 1 + k from by omega]
      · rw [List.length_cons, ← he.last]
        congr 1; omega
      · rw [List.length_cons] at hk
        rw [he.other k (by omega), getD_set _ 0 _ _ hil, if_neg (by omega)]

/-- A field of fewer than 128 characters is stored as a C string. -/
theorem strncpyBuf_short (f : Str) (h0 : (0 : BitVec 8) ∉ f) : cstring (strncpyBuf f) = if f.length < PBUF then some f else none := by
  rw [cstring, strncpyBuf]
  by_cases h : f.length < PBUF
  · have : PBUF - f.length = (PBUF - f.length - 1) + 1 := by omega
    rw [List.take_of_length_le (by omega), this, List.replicate_succ, if_pos (by simp), if_pos h,
      List.takeWhile_append_of_pos (by
        intro a ha
        have : a ≠ 0 := fun e => h0 (e ▸ ha)
        simpa using this)]
    simp
  · rw [show PBUF - f.length = 0 from by omega, if_neg h, List.replicate_zero, List.append_nil, if_neg]
    exact fun hm => h0 (List.mem_of_mem_take hm)

theorem fields_mem (line : Str) (f : Str) (hf : f ∈ fields line) : ∀ x ∈ f, x ∈ line := by
  rw [fields_eq, List.mem_filter] at hf
  have := hf.1
  clear hf
  induction line generalizing f with
  | nil => simp at this; subst this; simp
  | cons c s ih =>
    rw [List.splitOnP_cons_eq_if_modifyHead] at this
    split at this
    · rcases List.mem_cons.1 this with rfl | h
      · simp
      · intro x hx; exact List.mem_cons_of_mem _ (ih f h x hx)
    · cases hs : s.splitOnP isDelim with
      | nil => rw [hs] at this; simp at this
      | cons g gs =>
        rw [hs, List.modifyHead_cons] at this
        rw [hs] at ih
        rcases List.mem_cons.1 this with rfl | h
        · intro x hx
          rcases List.mem_cons.1 hx with rfl | hx
          · simp
          · exact List.mem_cons_of_mem _ (ih g (by simp) x hx)
        · intro x hx; exact List.mem_cons_of_mem _ (ih f (by simp [h]) x hx)

/-- **C52.** For a line of at most 1023 fields, each of fewer than 128 characters, `split` returns the number of fields
and `splitbuf` holds them in order as C strings. -/
theorem C52_split_short (line : Str) (hz : (0 : BitVec 8) ∉ line) (buf : List (List (BitVec 8))) (hl : buf.length = PK)
    (hn : (fields line).length ≤ 1023) (hf : ∀ f ∈ fields line, f.length < 128) :
    ∃ buf', split line buf = .ok ((fields line).length, buf') ∧
      ∀ k < (fields line).length, cstring (buf'.getD k []) = some ((fields line).getD k []) := by
  obtain ⟨buf', h1, h2, h3⟩ := C52_split line buf hl
  have hPK : PK = 1024 := rfl
  refine ⟨buf', by rw [h1, Nat.min_eq_left (by omega)], fun k hk => ?_⟩
  have hne : fields line ≠ [] := by rintro e; rw [e] at hk; simp at hk
  have hs := h3 hne
  rw [List.take_of_length_le (by omega)] at hs
  have := hs.get k hk
  rw [Nat.zero_add] at this
  have hm : (fields line).getD k [] ∈ fields line := by
    simp only [List.getD, List.getElem?_eq_getElem hk]; exact List.getElem_mem hk
  rw [this, strncpyBuf_short _ (fun h => hz (fields_mem line _ hm _ h)), if_pos (show _ < PBUF from hf _ hm)]

/-- **C52** fails for a field of 128 characters or more: what is stored is not a terminated string. -/
theorem C52_unterminated (n : Nat) (hn : 128 ≤ n) (buf : List (List (BitVec 8))) (hl : buf.length = PK) :
    ∃ buf', split (List.replicate n 65) buf = .ok (1, buf') ∧ cstring (buf'.getD 0 []) = none := by
  have hfields : fields (List.replicate n 65) = [List.replicate n 65] := by
    have := fields_run (List.replicate n 65) [] (by
      intro h; have := congrArg List.length h; simp at this; omega) (fun x hx => by
      rw [(List.mem_replicate.1 hx).2]; decide) (Or.inl rfl)
    rw [List.append_nil] at this
    rw [this]; rfl
  obtain ⟨buf', h1, -, h3⟩ := C52_split (List.replicate n 65) buf hl
  rw [hfields] at h1 h3
  refine ⟨buf', h1, ?_⟩
  have := (h3 (by simp)).get 0 (by simp [PK])
  rw [Nat.zero_add] at this
  rw [this]
  have e : ([List.replicate n (65 : BitVec 8)].take (PK - 1)).getD 0 [] = List.replicate n 65 := rfl
  rw [e, strncpyBuf_short _ (fun h => by have := (List.mem_replicate.1 h).2; exact absurd this (by decide)), if_neg]
  rw [List.length_replicate, PBUF]; omega

/-- `chop` removes the last character, whatever it is. -/
theorem C52_chop (s : Str) (c : BitVec 8) : chop (s ++ [c]) = .ok s ∧ chop [] = .ub := by
  rw [chop, if_neg (by simp), List.dropLast_concat]
  exact ⟨rfl, rfl⟩

/-- `"a, bc:d"`. -/
example : fields [97, 44, 32, 98, 99, 58, 100] = [[97], [98, 99], [100]] := by decide

/-! ### C53 -/

namespace Spec

/-- `x` belongs to bin `k` of `n` equal bins between `lo` and `hi`; values below the range belong to the first
and values above it to the last one. -/
def inBin (lo hi : ℚ) (n k : Nat) (x : ℚ) : Prop :=
  k < n ∧ (k = 0 ∨ lo + k * ((hi - lo) / n) ≤ x) ∧ (k + 1 = n ∨ x < lo + (k + 1) * ((hi - lo) / n))

instance (lo hi : ℚ) (n k : Nat) (x : ℚ) : Decidable (inBin lo hi n k x) := by unfold inBin; infer_instance

end Spec

/-- Every value belongs to exactly one bin. -/
theorem inBin_unique (lo hi : ℚ) (h : lo < hi) (n : Nat) (hn : 0 < n) (x : ℚ) : ∃! k, inBin lo hi n k x := by
  have hw : 0 < (hi - lo) / n := div_pos (by linarith) (by exact_mod_cast hn)
  have key : ∀ q : ℚ, ∃! k, k < n ∧ (k = 0 ∨ (k : ℚ) ≤ q) ∧ (k + 1 = n ∨ q < k + 1) := by
    intro q
    refine ⟨min ⌊q⌋.toNat (n - 1), ⟨by omega, ?_, ?_⟩, ?_⟩
    · by_cases h0 : 0 ≤ q
      · right
        have h1 : (⌊q⌋.toNat : ℚ) ≤ q := by
          have : ((⌊q⌋.toNat : Int) : ℚ) = ⌊q⌋ := by rw [Int.toNat_of_nonneg (Int.floor_nonneg.2 h0)]
          have h2 := Int.floor_le q
          have h3 : ((⌊q⌋.toNat : Int) : ℚ) = (⌊q⌋.toNat : ℚ) := by push_cast; rfl
          linarith
        have h4 : ((min ⌊q⌋.toNat (n - 1) : Nat) : ℚ) ≤ (⌊q⌋.toNat : ℚ) := by exact_mod_cast Nat.min_le_left _ _
        linarith
      · left
        have : ⌊q⌋.toNat = 0 := Int.toNat_eq_zero.2 (le_of_lt (Int.floor_lt.2 (by push_cast; linarith)))
        omega
    · by_cases hc : ⌊q⌋.toNat ≤ n - 1
      · right
        rw [Nat.min_eq_left hc]
        have h1 := Int.lt_floor_add_one q
        have h2 : (⌊q⌋ : ℚ) ≤ ((⌊q⌋.toNat : Int) : ℚ) := by exact_mod_cast Int.self_le_toNat _
        have h3 : ((⌊q⌋.toNat : Int) : ℚ) = (⌊q⌋.toNat : ℚ) := by push_cast; rfl
        linarith
      · left; omega
    · rintro k ⟨hk, h1, h2⟩
      have hup : k + 1 = n ∨ ⌊q⌋ < (k : Int) + 1 := by
        rcases h2 with h2 | h2
        · exact Or.inl h2
        · right; rw [Int.floor_lt]; push_cast; exact h2
      have hlow : k = 0 ∨ (k : Int) ≤ ⌊q⌋ := by
        rcases h1 with h1 | h1
        · exact Or.inl h1
        · right; rw [Int.le_floor]; push_cast; exact h1
      omega
  have e : ∀ k : Nat, inBin lo hi n k x ↔ (k < n ∧ (k = 0 ∨ (k : ℚ) ≤ (x - lo) / ((hi - lo) / n)) ∧
      (k + 1 = n ∨ (x - lo) / ((hi - lo) / n) < k + 1)) := by
    intro k
    rw [inBin, le_div_iff₀ hw, div_lt_iff₀ hw, le_sub_iff_add_le', sub_lt_iff_lt_add']
  obtain ⟨k, h1, h2⟩ := key ((x - lo) / ((hi - lo) / n))
  exact ⟨k, (e k).2 h1, fun m hm => h2 m ((e m).1 hm)⟩

/-- The index computed by the code, when the conversion to `int` is defined. -/
theorem hist_index (w : ℚ) (hw : 0 < w) (n : Nat) (hn : 0 < n) (x : ℚ) (hx : |x / w| < 2 ^ 31) :
    ∃ z : Int, toInt (x / w) = .ok z ∧
      inBin 0 (w * n) n ((if (if z < 0 then 0 else z) ≥ n then (n : Int) - 1 else (if z < 0 then 0 else z)).toNat) x := by
  have hn' : (n : ℚ) ≠ 0 := by exact_mod_cast Nat.pos_iff_ne_zero.1 hn
  have hwn : (w * n - 0) / n = w := by field_simp; ring
  set q := x / w with hq
  have hxq : x = q * w := by rw [hq]; field_simp
  obtain ⟨hlo, hhi⟩ := abs_lt.1 hx
  have hcast : (2 : ℚ) ^ 31 = ((2 ^ 31 : Int) : ℚ) := by norm_num
  by_cases h0 : 0 ≤ q
  · have hf0 : 0 ≤ ⌊q⌋ := Int.floor_nonneg.2 h0
    have hf1 : ⌊q⌋ < 2 ^ 31 := by rw [Int.floor_lt]; rw [hcast] at hhi; exact hhi
    refine ⟨⌊q⌋, by rw [toInt]; simp only [if_pos h0]; rw [if_pos ⟨by omega, hf1⟩], ?_⟩
    have ef : (if ⌊q⌋ < 0 then 0 else ⌊q⌋) = ⌊q⌋ := if_neg (by omega)
    rw [ef]
    by_cases hc : ⌊q⌋ ≥ n
    · rw [if_pos hc]
      obtain ⟨m, rfl⟩ : ∃ m, n = m + 1 := ⟨n - 1, by omega⟩
      have em : (((m + 1 : Nat) : Int) - 1).toNat = m := by omega
      rw [em]
      refine ⟨by omega, Or.inr ?_, Or.inl rfl⟩
      rw [hwn, hxq, zero_add]
      have : ((m : Int) : ℚ) ≤ q := by rw [← Int.le_floor]; omega
      push_cast at this
      exact mul_le_mul_of_nonneg_right this hw.le
    · rw [if_neg hc]
      have h1 : ((⌊q⌋.toNat : Nat) : ℚ) = (⌊q⌋ : ℚ) := by
        have : ((⌊q⌋.toNat : Int) : ℚ) = ⌊q⌋ := by rw [Int.toNat_of_nonneg hf0]
        rw [← this]; push_cast; rfl
      refine ⟨by omega, Or.inr ?_, Or.inr ?_⟩
      · rw [hwn, hxq, zero_add, h1]
        exact mul_le_mul_of_nonneg_right (Int.floor_le q) hw.le
      · rw [hwn, hxq, zero_add, h1]
        exact mul_lt_mul_of_pos_right (Int.lt_floor_add_one q) hw
  · have h0' : q < 0 := by linarith
    have hf0 : 0 ≤ ⌊-q⌋ := Int.floor_nonneg.2 (by linarith)
    have hf1 : ⌊-q⌋ < 2 ^ 31 := by rw [Int.floor_lt]; rw [hcast] at hlo; linarith
    refine ⟨-⌊-q⌋, by rw [toInt]; simp only [if_neg h0]; rw [if_pos ⟨by omega, by omega⟩], ?_⟩
    have e0 : (if -⌊-q⌋ < 0 then 0 else -⌊-q⌋) = 0 := by split <;> omega
    rw [e0, if_neg (by omega)]
    refine ⟨by simpa using hn, Or.inl rfl, Or.inr ?_⟩
    rw [hwn, hxq]
    have : q * w < 0 := mul_neg_of_neg_of_pos h0' hw
    simp only [Int.toNat_zero, Nat.cast_zero, zero_add, one_mul]
    linarith

theorem histLoop_spec (w : ℚ) (hw : 0 < w) (n : Nat) (hn : 0 < n) (f0 : List Nat) (hf : f0.length = n) :
    ∀ (xs : List ℚ) (l bin : List Nat) (m : Nat), (∀ x ∈ xs, |x / w| < 2 ^ 31) → Tallied f0 l bin →
    (∀ b ∈ bin, b ≤ m) → (m ∈ bin) →
    ∃ (l' bin' : List Nat) (m' : Nat), histLoop w n xs bin m = .ok (bin', m') ∧ Tallied f0 (l ++ l') bin' ∧
      List.Forall₂ (fun x k => inBin 0 (w * n) n k x) xs l' ∧ (∀ b ∈ bin', b ≤ m') ∧ m' ∈ bin'
  | [], l, bin, m, _, h, h1, h2 => ⟨[], bin, m, rfl, by simpa using h, List.Forall₂.nil, h1, h2⟩
  | x :: xs, l, bin, m, hx, h, h1, h2 => by
    obtain ⟨z, hz, hb⟩ := hist_index w hw n hn x (hx x (by simp))
    set k := (if (if z < 0 then 0 else z) ≥ (n : Int) then (n : Int) - 1 else (if z < 0 then 0 else z)).toNat with hk
    have hkn : k < f0.length := by rw [hf]; exact hb.1
    obtain ⟨bin1, a1, t1⟩ := h.bump hkn
    have hkl : k < bin.length := by rw [h.len]; exact hkn
    have hbin1 : bin1 = bin.set k (bin.getD k 0 + 1) := by
      rw [bump_ok hkl] at a1; injection a1 with a1; exact a1.symm
    have hkl1 : k < bin1.length := by rw [t1.len]; exact hkn
    have hb1 : bin1[k] = bin.getD k 0 + 1 := by simp [hbin1]
    have hle1 : ∀ b ∈ bin1, b ≤ (if bin1[k] > m then bin1[k] else m) := by
      intro b hb
      rw [hbin1] at hb
      rcases List.mem_or_eq_of_mem_set hb with hb | hb
      · have := h1 b hb; split <;> omega
      · rw [hb1]; split <;> omega
    have hmem1 : (if bin1[k] > m then bin1[k] else m) ∈ bin1 := by
      split
      · exact List.getElem_mem hkl1
      · next hgt =>
        obtain ⟨p, hp, hpm⟩ := List.mem_iff_getElem.1 h2
        have hpk : p ≠ k := by
          intro e
          rw [hb1] at hgt
          have : bin.getD k 0 = m := by rw [← e]; simp [List.getD, hp, hpm]
          omega
        rw [List.mem_iff_getElem]
        refine ⟨p, by rw [t1.len, ← h.len]; exact hp, ?_⟩
        simp only [hbin1]
        rw [List.getElem_set_ne (fun h => hpk h.symm), hpm]
    obtain ⟨l', bin', m', a2, t2, fa, h3, h4⟩ := histLoop_spec w hw n hn f0 hf xs (l ++ [k]) bin1 _
      (fun y hy => hx y (by simp [hy])) t1 hle1 hmem1
    refine ⟨k :: l', bin', m', ?_, by simpa using t2, List.Forall₂.cons hb fa, h3, h4⟩
    rw [histLoop, hz, Res.bind_ok]
    simp only [← hk]
    rw [a1, Res.bind_ok, rd_ok hkl1, Res.bind_ok, a2]

/-- **C53.** For values starting at `min = 0` (the only use made of it) every value is counted in the one bin it belongs
to, the counts add up to the number of values, and the scale is taken from the largest count. -/
theorem C53_histogram (input : List ℚ) (max : ℚ) (hmax : 0 < max) (n : Nat) (hn : 0 < n)
    (hx : ∀ x ∈ input, |x / (max / n)| < 2 ^ 31) :
    ∃ bin m, histogram input 0 max n = .ok (bin, m) ∧ bin.length = n ∧ bin.sum = input.length ∧
      (∀ k, bin.getD k 0 = input.countP (fun x => decide (inBin 0 max n k x))) ∧ (∀ b ∈ bin, b ≤ m) ∧ m ∈ bin := by
  have hn' : (0 : ℚ) < n := by exact_mod_cast hn
  have hw : 0 < (max - 0) / n := div_pos (by linarith) hn'
  have hmx : (max - 0) / n * n = max := by rw [sub_zero]; field_simp
  obtain ⟨l, bin, m, h1, h2, h3, h4, h5⟩ := histLoop_spec ((max - 0) / n) hw n hn (List.replicate n 0) List.length_replicate
    input [] (List.replicate n 0) 0 (by rw [sub_zero]; exact hx) (Tallied.nil _)
    (fun b hb => by rw [(List.mem_replicate.1 hb).2]) (List.mem_replicate.2 ⟨by omega, rfl⟩)
  rw [List.nil_append] at h2
  rw [hmx] at h3
  refine ⟨bin, m, h1, by rw [h2.len, List.length_replicate], ?_, fun k => ?_, h4, h5⟩
  · rw [h2.sum, ← h3.length_eq]; simp
  · have e0 : (List.replicate n 0).getD k 0 = 0 := by
      simp only [List.getD, List.getElem?_replicate]; split <;> rfl
    rw [h2.get, e0, Nat.zero_add]
    clear h1 h2 h4 h5 hx
    induction h3 with
    | nil => rfl
    | @cons x j xs ls hxj _ ih =>
      rw [List.count_cons, List.countP_cons, ih]
      congr 1
      by_cases hj : j = k
      · subst hj; simp [hxj]
      · have : ¬ inBin 0 max n k x := by
          intro hk
          obtain ⟨u, _, hu⟩ := inBin_unique 0 max hmax n hn x
          exact hj ((hu j hxj).trans (hu k hk).symm)
        simp [hj, this]

/-- With another lower end the bins are wrong: of ten values between 5 and 10, 5.5 belongs to the first of five bins
and is counted in the last, because `min` is not subtracted. -/
theorem C53_min_ignored : histogram [11 / 2] 5 10 5 = .ok ([0, 0, 0, 0, 1], 1) ∧ inBin 5 10 5 0 (11 / 2) := by
  constructor
  · rw [histogram, histLoop]
    have : toInt (11 / 2 / ((10 - 5) / (5 : Nat))) = .ok 5 := by
      rw [show (11 / 2 / ((10 - 5) / ((5 : Nat) : ℚ))) = 11 / 2 from by norm_num, toInt]
      have : ⌊(11 / 2 : ℚ)⌋ = 5 := by rw [Int.floor_eq_iff]; norm_num
      rw [this]; norm_num
    rw [this]; rfl
  · refine ⟨by norm_num, Or.inl rfl, Or.inr ?_⟩
    norm_num

example : inBin 0 1 10 3 (7 / 20) ∧ inBin 0 1 10 9 1 ∧ ¬ inBin 0 1 10 2 (3 / 10) := by
  refine ⟨⟨by norm_num, Or.inr ?_, Or.inr ?_⟩, ⟨by norm_num, Or.inr ?_, Or.inl rfl⟩, ?_⟩
  · norm_num
  · norm_num
  · norm_num
  · rintro ⟨_, _, h | h⟩
    · omega
    · norm_num at h

end Dh
