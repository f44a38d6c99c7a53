import Verif.Proof.RandBits
import Verif.Proof.Reset
import Verif.Proof.GetBitsUint
/-
C05, C06, C07, C09: handing out the generator's bits.
-/
set_option linter.unusedSimpArgs false
namespace Dh
open Spec

/-- Generator values are below `2^r`: no bit at or above position `r`. -/
def Width (r : Nat) (src : Src) : Prop := ∀ k i, r ≤ i → (src k).getLsbD i = false

theorem getUintRands_reach (r : Nat) (src : Src) (hr : 0 < r) (hr32 : r ≤ 32) (hw : Width r src) (p0 : Nat) :
    ∀ (k m : Nat) (s : URState), URReach r src p0 m s →
    ∃ s', getUintRands r src k s = .ok ((List.range k).map (fun i => urWord r src (p0 * r) (m + i)), s') ∧
      URReach r src p0 (m + k) s' := by
  intro k
  induction k with
  | zero => intro m s h; exact ⟨s, rfl, h⟩
  | succ k ih =>
    intro m s h
    obtain ⟨s1, h1, h2⟩ := getUintRand_reach r src hr hr32 hw p0 m s h
    obtain ⟨s2, h3, h4⟩ := ih (m + 1) s1 h2
    refine ⟨s2, ?_, ?_⟩
    · rw [getUintRands, h1]
      simp only [Res.bind_ok, h3, List.range_succ_eq_map, List.map_cons, List.map_map, Nat.add_zero]
      congr 3
      apply List.map_congr_left
      intro i _
      simp only [Function.comp]
      congr 1; omega
    · rw [show m + (k + 1) = m + 1 + k by omega]; exact h4

theorem urReach_init (r : Nat) (src : Src) : URReach r src 0 0 URState.init := ⟨rfl, rfl⟩

/-- **C05.** `k` successive calls of `get_uint_rand` return words of which word `m`
is the `m`-th 32-bit segment of the concatenation of the generator's `r`-bit values (least
significant bit first), for `m = 0`, for a 32-bit generator, and whenever the segment does
not begin at the beginning of a generator value.  The remaining words, `m > 0` with `r < 32` and
`r ∣ 32*m`, are described by `C05_polluted`. -/
theorem C05_get_uint_rand (r : Nat) (src : Src) (hr : 0 < r) (hr32 : r ≤ 32) (hw : Width r src) (k : Nat) :
    ∃ xs s, getUintRands r src k URState.init = .ok (xs, s) ∧ xs.length = k ∧
      ∀ m < k, (r = 32 ∨ m = 0 ∨ ¬ r ∣ 32 * m) →
        xs.getD m 0 = takeBits (lsbStream r src) (32 * m) 32 := by
  obtain ⟨s', h1, _⟩ := getUintRands_reach r src hr hr32 hw 0 k 0 URState.init (urReach_init r src)
  refine ⟨_, s', h1, by simp, ?_⟩
  intro m hm hc
  rw [List.getD_eq_getElem?_getD, List.getElem?_map, List.getElem?_range hm]
  simp only [Option.map_some, Option.getD_some, Nat.zero_mul, Nat.zero_add]
  cases m with
  | zero => simp [urWord]
  | succ m =>
    rw [urWord, if_neg]
    · rw [add_zero_u, Nat.zero_add]
    · rintro ⟨h1, h2⟩
      rcases hc with h | h | h
      · omega
      · omega
      · exact h (Nat.dvd_of_mod_eq_zero (by simpa using h2))

/-- **C05, what the code does instead.** When a segment begins at the beginning of a generator
value (`r < 32`, `r ∣ 32*m`, `m > 0`), the word returned is the segment *plus the previously
returned word*. -/
theorem C05_polluted (r : Nat) (src : Src) (hr : 0 < r) (hr32 : r < 32) (hw : Width r src) (k : Nat) :
    ∃ xs s, getUintRands r src k URState.init = .ok (xs, s) ∧ xs.length = k ∧
      ∀ m, 0 < m → m < k → r ∣ 32 * m →
        xs.getD m 0 = takeBits (lsbStream r src) (32 * m) 32 + xs.getD (m - 1) 0 := by
  obtain ⟨s', h1, _⟩ := getUintRands_reach r src hr (by omega) hw 0 k 0 URState.init (urReach_init r src)
  refine ⟨_, s', h1, by simp, ?_⟩
  intro m h0 hm hd
  obtain ⟨m, rfl⟩ : ∃ l, m = l + 1 := ⟨m - 1, by omega⟩
  have hm' : m < k := by omega
  rw [List.getD_eq_getElem?_getD, List.getElem?_map, List.getElem?_range hm, Nat.add_sub_cancel,
    List.getD_eq_getElem?_getD, List.getElem?_map, List.getElem?_range hm']
  simp only [Option.map_some, Option.getD_some, Nat.zero_mul, Nat.zero_add]
  rw [urWord, if_pos ⟨hr32, by simpa using Nat.mod_eq_zero_of_dvd hd⟩, Nat.zero_add]

/-- **C05, lossless repackaging fails** for every generator width below 32: the all-ones
generator does not come through as all ones. -/
theorem C05_full_claim_fails (r : Nat) (hr : 0 < r) (hr32 : r < 32) :
    ∃ src, Width r src ∧ ∀ xs s, getUintRands r src (r + 1) URState.init = .ok (xs, s) →
      ¬ ∀ m < r + 1, xs.getD m 0 = takeBits (lsbStream r src) (32 * m) 32 := by
  refine ⟨fun _ => BitVec.allOnes 32 >>> (32 - r), ?_, ?_⟩
  · intro k i hi
    rw [BitVec.getLsbD_ushiftRight, BitVec.getLsbD_allOnes]
    simp; omega
  · intro xs s hx hall
    have hw : Width r (fun _ => BitVec.allOnes 32 >>> (32 - r)) := by
      intro k i hi
      rw [BitVec.getLsbD_ushiftRight, BitVec.getLsbD_allOnes]
      simp; omega
    obtain ⟨xs', s', h1, h2, h3⟩ := C05_polluted r _ hr hr32 hw (r + 1)
    rw [hx] at h1
    cases h1
    have hp := h3 r hr (by omega) ⟨32, by rw [Nat.mul_comm]⟩
    rw [hall r (by omega), hall (r - 1) (by omega)] at hp
    have hz : takeBits (lsbStream r (fun _ => BitVec.allOnes 32 >>> (32 - r))) (32 * (r - 1)) 32 = 0 := by
      have := congrArg (fun z => z - takeBits (lsbStream r (fun _ => BitVec.allOnes 32 >>> (32 - r))) (32 * r) 32) hp
      simp only [BitVec.sub_self] at this
      rw [BitVec.add_comm, BitVec.add_sub_cancel] at this
      exact this.symm
    have hb := takeBits_getLsbD (lsbStream r (fun _ => BitVec.allOnes 32 >>> (32 - r))) (32 * (r - 1)) 32 0
    rw [hz] at hb
    unfold lsbStream at hb
    rw [BitVec.getLsbD_ushiftRight, BitVec.getLsbD_allOnes] at hb
    have := Nat.mod_lt (32 * (r - 1)) hr
    simp at hb
    omega

/-- A 24-bit generator: the first three words are the plain concatenation, the fourth has
the third added to it. -/
example : (getUintRands 24 (fun k => [0x111111, 0x222222, 0x333333, 0x444444, 0x555555].getD k 1) 4
    URState.init).map Prod.fst = .ok [0x22111111, 0x33332222, 0x44444433, 0x45999988] := by decide +kernel

theorem getRandBitsSeq_inv (r : Nat) (src : Src) (hr : 0 < r) (hr32 : r ≤ 32) (hw : Width r src) (p0 : Nat) :
    ∀ (ns : List Nat) (P : Nat) (s : RBState), RBInv r src p0 P s → (∀ n ∈ ns, n ≤ 32) →
    ∃ s', getRandBitsSeq r src ns s = .ok (segments (lsbStream 32 (uw r src p0)) P ns, s') := by
  intro ns
  induction ns with
  | nil => intro P s _ _; exact ⟨s, rfl⟩
  | cons n ns ih =>
    intro P s h hns
    by_cases hn : n = 0
    · subst hn
      obtain ⟨s', h'⟩ := ih P s h (fun n hn => hns n (by simp [hn]))
      refine ⟨s', ?_⟩
      rw [getRandBitsSeq, getRandBits]
      simp only [if_true, Res.bind_ok, h', segments, takeBits, Nat.add_zero]
      rfl
    · obtain ⟨b, s1, h1, h2, h3⟩ := getRandBits_uint r src p0 hr hr32 hw P n s h (by omega) (hns n (by simp))
      obtain ⟨s', h'⟩ := ih (P + n) s1 h3 (fun n hn => hns n (by simp [hn]))
      refine ⟨s', ?_⟩
      rw [getRandBitsSeq, h1]
      simp only [Res.bind_ok, h', h2, segments]

/-- From a freshly reset state. -/
theorem getRandBitsSeq_fresh (r : Nat) (src : Src) (hr : 0 < r) (hr32 : r ≤ 32) (hw : Width r src) (p0 : Nat) :
    ∀ (ns : List Nat) (s : RBState), s.brindex = -1 → s.buf.length = 6 → URReach r src p0 0 s.ur →
    (∀ n ∈ ns, n ≤ 32) →
    ∃ s', getRandBitsSeq r src ns s = .ok (segments (lsbStream 32 (uw r src p0)) 0 ns, s') := by
  intro ns
  induction ns with
  | nil => intro s _ _ _ _; exact ⟨s, rfl⟩
  | cons n ns ih =>
    intro s h1 h2 h3 hns
    by_cases hn : n = 0
    · subst hn
      obtain ⟨s', h'⟩ := ih s h1 h2 h3 (fun n hn => hns n (by simp [hn]))
      refine ⟨s', ?_⟩
      rw [getRandBitsSeq, getRandBits]
      simp only [if_true, Res.bind_ok, h', segments, takeBits, Nat.add_zero]
      rfl
    · have hn32 := hns n (by simp)
      obtain ⟨s0, he, hi⟩ := getRandBits_first r src p0 hr hr32 hw n s h1 h2 h3 4 (by omega) (by omega) (by omega)
      obtain ⟨s', h'⟩ := getRandBitsSeq_inv r src hr hr32 hw p0 (n :: ns) 0 s0 hi hns
      refine ⟨s', ?_⟩
      rw [getRandBitsSeq] at h' ⊢
      rw [he]; exact h'

/-- **C06.** Let `words` be the words `get_uint_rand` returns.  Any history of requests
`get_rand_bits(&x, sizeof(uint), n)` with widths at most 32 returns consecutive,
non-overlapping segments of the bit stream made of these words, least significant bit
first. -/
theorem C06_get_rand_bits (r : Nat) (src : Src) (hr : 0 < r) (hr32 : r ≤ 32) (hw : Width r src) :
    ∃ words : Nat → UInt,
      (∀ k, ∃ s, getUintRands r src k URState.init = .ok ((List.range k).map words, s)) ∧
      ∀ ns : List Nat, (∀ n ∈ ns, n ≤ 32) →
        ∃ s, getRandBitsSeq r src ns RBState.init = .ok (segments (lsbStream 32 words) 0 ns, s) := by
  refine ⟨uw r src 0, ?_, ?_⟩
  · intro k
    obtain ⟨s', h1, _⟩ := getUintRands_reach r src hr hr32 hw 0 k 0 URState.init (urReach_init r src)
    refine ⟨s', ?_⟩
    rw [h1]
    congr 3
    funext i
    rw [Nat.zero_add]
  · intro ns hns
    exact getRandBitsSeq_fresh r src hr hr32 hw 0 ns RBState.init rfl rfl (urReach_init r src) hns

/-- **C06** for 32-bit generators: the stream is that of the generator itself, so that each
generator bit is used exactly once, in order. -/
theorem C06_get_rand_bits_32 (src : Src) (ns : List Nat) (hns : ∀ n ∈ ns, n ≤ 32) :
    ∃ s, getRandBitsSeq 32 src ns RBState.init = .ok (segments (lsbStream 32 src) 0 ns, s) := by
  have hw : Width 32 src := fun k i hi => BitVec.getLsbD_of_ge _ _ hi
  obtain ⟨s, h⟩ := getRandBitsSeq_fresh 32 src (by omega) (by omega) hw 0 ns RBState.init rfl rfl
    (urReach_init 32 src) hns
  refine ⟨s, ?_⟩
  rw [h]
  congr 3
  funext k
  unfold lsbStream
  congr 1
  generalize k / 32 = j
  have hseg : takeBits (lsbStream 32 src) (32 * j) 32 = src j := by
    apply BitVec.eq_of_getLsbD_eq
    intro i hi
    rw [takeBits_getLsbD]
    have e1 : (32 * j + i) / 32 = j := by omega
    have e2 : (32 * j + i) % 32 = i := by omega
    simp only [lsbStream, e1, e2, hi]; simp
  unfold uw
  cases j with
  | zero => rw [urWord]; simpa using hseg
  | succ j => rw [urWord, if_neg (by omega), add_zero_u]; simpa using hseg

/-- Widths 4, 24, 32, 1 from a 32-bit generator. -/
example : (getRandBitsSeq 32 (fun k => [0x76543210, 0xFEDCBA98, 0x11111111].getD k 0) [4, 24, 32, 1]
    RBState.init).map Prod.fst = .ok [0x0, 0x654321, 0xEDCBA987, 1] := by decide +kernel

/-- **C07.** Any history of requests `get_rand_bits_uint(n, mask, rng)` of at most 32 bits with
a proper mask is served as by a queue of bits filled with whole generator values, most
significant bit first; requests as wide as the generator take the next whole value past the
queue. -/
theorem C07_get_rand_bits_uint (r : Nat) (src : Src) (hr : 0 < r) (hr32 : r ≤ 32) (hw : Width r src)
    (reqs : List (Nat × UInt))
    (hreq : ∀ p ∈ reqs, p.1 ≤ 32 ∧ ((p.1 = 32 ∧ p.2 ≠ 0) ∨ (p.2 = 0 ∧ p.1 < 32) ∨
      ∀ i < 32, p.2.getLsbD i = decide (i < p.1))) :
    ∃ s, getRandBitsUints r src reqs GBState.init =
      .ok ((Queue.serve r src (reqs.map Prod.fst) ⟨[], 0⟩).1, s) := by
  obtain ⟨s', h1, _, _⟩ := getRandBitsUints_spec r src hr hr32 hw reqs GBState.init
    ⟨hr, fun i _ => by simp [GBState.init]⟩ hreq
  exact ⟨s', h1⟩

/-- Widths 3, 7 (crossing a 5-bit value), 5 (bypass) and 4 from a 5-bit generator. -/
example : (getRandBitsUints 5 (fun k => [0b10110, 0b01101, 0b11100, 0b00111].getD k 0)
    [(3, 7), (7, 0x7F), (5, 0x1F), (4, 0xF)] GBState.init).map Prod.fst
    = .ok [0b101, 0b1001101, 0b11100, 0b0011] := by decide +kernel
example : (Queue.serve 5 (fun k => [0b10110, 0b01101, 0b11100, 0b00111].getD k 0) [3, 7, 5, 4] ⟨[], 0⟩).1
    = [0b101, 0b1001101, 0b11100, 0b0011] := by decide +kernel

theorem popN_stream (r : Nat) (src : Src) (hr : 0 < r) : ∀ (n k : Nat),
    Queue.popN r src n ⟨(List.range (if k % r = 0 then 0 else r - k % r)).map
        (fun j => (src (k / r)).getLsbD (r - 1 - (k % r + j))), if k % r = 0 then k / r else k / r + 1⟩ =
      ((List.range n).map (fun j => (src ((k + j) / r)).getLsbD (r - 1 - (k + j) % r)),
       ⟨(List.range (if (k + n) % r = 0 then 0 else r - (k + n) % r)).map
        (fun j => (src ((k + n) / r)).getLsbD (r - 1 - ((k + n) % r + j))),
        if (k + n) % r = 0 then (k + n) / r else (k + n) / r + 1⟩) := by
  intro n
  induction n with
  | zero => intro k; simp [Queue.popN]
  | succ n ih =>
    intro k
    have hstep : Queue.pop r src ⟨(List.range (if k % r = 0 then 0 else r - k % r)).map
        (fun j => (src (k / r)).getLsbD (r - 1 - (k % r + j))), if k % r = 0 then k / r else k / r + 1⟩ =
        ((src (k / r)).getLsbD (r - 1 - k % r),
          ⟨(List.range (if (k + 1) % r = 0 then 0 else r - (k + 1) % r)).map
        (fun j => (src ((k + 1) / r)).getLsbD (r - 1 - ((k + 1) % r + j))),
          if (k + 1) % r = 0 then (k + 1) / r else (k + 1) / r + 1⟩) := by
      have hk := Nat.div_add_mod k r
      have hlt := Nat.mod_lt k hr
      obtain ⟨q, hq⟩ : ∃ q, q = k / r := ⟨_, rfl⟩
      obtain ⟨m, hm⟩ : ∃ m, m = k % r := ⟨_, rfl⟩
      rw [← hq, ← hm] at hk
      rw [← hm] at hlt
      rw [← hq, ← hm]
      -- next position
      have hnext : (m + 1 < r ∧ (k + 1) / r = q ∧ (k + 1) % r = m + 1) ∨
          (m + 1 = r ∧ (k + 1) / r = q + 1 ∧ (k + 1) % r = 0) := by
        by_cases h : m + 1 < r
        · left
          refine ⟨h, ?_, ?_⟩
          · rw [← hk, Nat.add_assoc, Nat.mul_add_div hr, Nat.div_eq_of_lt h, Nat.add_zero]
          · rw [← hk, Nat.add_assoc, Nat.mul_add_mod, Nat.mod_eq_of_lt h]
        · right
          have h' : m + 1 = r := by omega
          refine ⟨h', ?_, ?_⟩
          · rw [← hk, Nat.add_assoc, Nat.mul_add_div hr, h', Nat.div_self hr]
          · rw [← hk, Nat.add_assoc, Nat.mul_add_mod, h', Nat.mod_self]
      by_cases h0 : m = 0
      · simp only [h0, if_true, List.range_zero, List.map_nil, Queue.pop]
        obtain ⟨l, rfl⟩ : ∃ l, r = l + 1 := ⟨r - 1, by omega⟩
        rw [msbBits_succ]
        simp only [List.headD, List.tail]
        rcases hnext with ⟨h1, h2, h3⟩ | ⟨h1, h2, h3⟩
        · rw [h2, h3, h0, if_neg (by omega), if_neg (by omega)]
          simp only [Nat.zero_add]
          refine Prod.ext (by simp) ?_
          simp only
          congr 1
          unfold msbBits
          rw [Nat.add_sub_cancel]
          apply List.map_congr_left
          intro j _
          congr 1; omega
        · rw [h2, h3, if_pos rfl, if_pos rfl]
          have : l = 0 := by omega
          subst this
          rfl
      · simp only [h0, if_false]
        obtain ⟨l, hl⟩ : ∃ l, r - m = l + 1 := ⟨r - m - 1, by omega⟩
        rw [hl, List.range_succ_eq_map]
        simp only [List.map_cons, List.map_map, Queue.pop, Nat.add_zero]
        rcases hnext with ⟨h1, h2, h3⟩ | ⟨h1, h2, h3⟩
        · rw [h2, h3, if_neg (by omega), if_neg (by omega)]
          refine Prod.ext rfl ?_
          simp only
          congr 1
          rw [show r - (m + 1) = l by omega]
          apply List.map_congr_left
          intro j _
          simp only [Function.comp]
          congr 1; omega
        · rw [h2, h3, if_pos rfl, if_pos rfl]
          have : l = 0 := by omega
          subst this
          rfl
    rw [Queue.popN, hstep]
    simp only
    rw [ih (k + 1)]
    simp only [List.range_succ_eq_map, List.map_cons, List.map_map, Nat.add_zero]
    rw [show k + 1 + n = k + (n + 1) by omega]
    refine Prod.ext ?_ rfl
    simp only
    congr 1
    apply List.map_congr_left
    intro j _
    simp only [Function.comp]
    rw [show k + 1 + j = k + (j + 1) by omega]

/-- Bit `k` of the most-significant-first concatenation of the generator's `r`-bit values. -/
def Spec.msbCat (r : Nat) (src : Src) (k : Nat) : Bool := (src (k / r)).getLsbD (r - 1 - k % r)

/-- **C07**, histories without whole-value requests: request `j` returns the number written by
the `n_j` bits of the most-significant-first concatenation of the generator's values that
follow those of the earlier requests. -/
theorem C07_segments (r : Nat) (src : Src) (hr : 0 < r) (hr32 : r ≤ 32) (hw : Width r src)
    (reqs : List (Nat × UInt))
    (hreq : ∀ p ∈ reqs, p.1 ≤ 32 ∧ p.1 ≠ r ∧ ((p.1 = 32 ∧ p.2 ≠ 0) ∨ (p.2 = 0 ∧ p.1 < 32) ∨
      ∀ i < 32, p.2.getLsbD i = decide (i < p.1))) :
    ∃ xs s, getRandBitsUints r src reqs GBState.init = .ok (xs, s) ∧ xs.length = reqs.length ∧
      ∀ j < reqs.length, ∀ i < (reqs.getD j (0, 0)).1,
        (xs.getD j 0).getLsbD ((reqs.getD j (0, 0)).1 - 1 - i) =
          Spec.msbCat r src (((reqs.take j).map Prod.fst).sum + i) := by
  obtain ⟨s, h⟩ := C07_get_rand_bits_uint r src hr hr32 hw reqs (fun p hp => ⟨(hreq p hp).1, (hreq p hp).2.2⟩)
  refine ⟨_, s, h, ?_⟩
  have key : ∀ (ns : List Nat) (k : Nat), (∀ n ∈ ns, n ≤ 32 ∧ n ≠ r) →
      (Queue.serve r src ns ⟨(List.range (if k % r = 0 then 0 else r - k % r)).map
        (fun j => (src (k / r)).getLsbD (r - 1 - (k % r + j))), if k % r = 0 then k / r else k / r + 1⟩).1.length = ns.length ∧
      ∀ j < ns.length, ∀ i < ns.getD j 0,
        ((Queue.serve r src ns ⟨(List.range (if k % r = 0 then 0 else r - k % r)).map
        (fun j => (src (k / r)).getLsbD (r - 1 - (k % r + j))), if k % r = 0 then k / r else k / r + 1⟩).1.getD j 0).getLsbD
          (ns.getD j 0 - 1 - i) = Spec.msbCat r src (k + (ns.take j).sum + i) := by
    intro ns
    induction ns with
    | nil => intro k _; exact ⟨rfl, fun j hj => by simp at hj⟩
    | cons n ns ih =>
      intro k hn
      obtain ⟨hn1, hn2⟩ := hn n (by simp)
      obtain ⟨i1, i2⟩ := ih (k + n) (fun m hm => hn m (by simp [hm]))
      rw [Queue.serve]
      simp only [hn2, if_false, popN_stream r src hr n k]
      refine ⟨by simp [i1], ?_⟩
      intro j hj i hi
      cases j with
      | zero =>
        simp only [List.getD_cons_zero] at hi ⊢
        rw [valMsb_getLsbD _ _ (by omega)]
        have e1 : n - 1 - (n - 1 - i) = i := by omega
        have e2 : n - 1 - i < n := by omega
        simp [e1, e2, List.getD_eq_getElem?_getD, List.getElem?_range hi, Spec.msbCat]
      | succ j =>
        simp only [List.getD_cons_succ] at hi ⊢
        rw [i2 j (by simpa using hj) i hi]
        simp [Nat.add_assoc]
  have hk := key (reqs.map Prod.fst) 0 (by
    intro n hn
    obtain ⟨p, hp, rfl⟩ := List.mem_map.1 hn
    exact ⟨(hreq p hp).1, (hreq p hp).2.1⟩)
  simp only [Nat.zero_mod, if_true, Nat.zero_div, List.range_zero, List.map_nil, Nat.zero_add] at hk
  refine ⟨by simpa using hk.1, ?_⟩
  intro j hj i hi
  have e : (reqs.map Prod.fst).getD j 0 = (reqs.getD j (0, 0)).1 := by
    simp [List.getD_eq_getElem?_getD, List.getElem?_map, List.getElem?_eq_getElem hj]
  have := hk.2 j (by simpa using hj) i (by rw [e]; exact hi)
  rw [e] at this
  rw [this, List.map_take]

/-- **C09.** After `reset_bit_buffers()` what any sequence of `get_uint_rand` and
`get_rand_bits` calls hands out depends only on what the generator produces from then on:
whatever the two earlier states, if the generators agree from now on the outcomes agree. -/
theorem C09_reset_reproducible (r : Nat) (src src' : Src) (s s' : RBState)
    (hsame : ∀ k, src (s.ur.pos + k) = src' (s'.ur.pos + k)) (qs : List Req) :
    (runReqs r src qs (resetBitBuffers s)).map Prod.fst =
      (runReqs r src' qs (resetBitBuffers s')).map Prod.fst := by
  have h := runReqs_sim src src' r qs (resetBitBuffers s) (resetBitBuffers s')
    ⟨⟨rfl, rfl, rfl, hsame⟩, rfl, rfl, rfl, rfl, rfl⟩
  revert h
  generalize runReqs r src qs (resetBitBuffers s) = x
  generalize runReqs r src' qs (resetBitBuffers s') = y
  intro h
  cases x <;> cases y <;> simp [Res.Rel] at h
  · rename_i a b
    simp only [Res.map, h.1]
  all_goals rfl

/-- **C09, necessity.** Without the reset the bits handed out can depend on earlier requests:
after one 8-bit request the next value is not the one a fresh run obtains from the same
remaining generator output. -/
theorem C09_without_reset :
    ∃ src : Src,
      (do let p ← getRandBits 32 src 4 8 RBState.init
          runReqs 32 src [.bits 4 8] p.2).map Prod.fst ≠
      (do let p ← getRandBits 32 src 4 8 RBState.init
          runReqs 32 src [.bits 4 8] (resetBitBuffers p.2)).map Prod.fst := by
  refine ⟨fun k => [0x0201, 5, 6, 7, 8, 9, 10, 11, 12].getD k 0, ?_⟩
  decide +kernel

example : (runReqs 32 (fun k => (7 * k : Nat)) [.uint, .bits 4 12]
    (resetBitBuffers ⟨⟨3, 4, 5, 2⟩, [1,2,3,4,5,6], [0,0,0,0,0,0], 2, 2, 9⟩)).map Prod.fst
    = .ok [[14, 0, 0, 0], [21, 0, 0, 0]] := by decide +kernel

end Dh
