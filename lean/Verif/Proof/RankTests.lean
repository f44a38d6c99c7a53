import Verif.Model.RankTests
import Verif.Props.RandBits
import Verif.Props.Rank
import Verif.Proof.Tally
/-
The words the rank tests read and the tallies they keep.
-/
namespace Dh
open Spec

/-- The state of the bit buffer after `k` bits have been taken with requests that never bypass the buffer, or after `k / 32`
whole 32-bit values. -/
structure AtBit (r : Nat) (src : Src) (k : Nat) (s : GBState) : Prop where
  inv : GBInv r s
  whole : r = 32 → s.pos * 32 = k
  queue : r ≠ 32 → (⟨msbBits s.left s.buf, s.pos⟩ : Queue) = ⟨(List.range (if k % r = 0 then 0 else r - k % r)).map
        (fun j => (src (k / r)).getLsbD (r - 1 - (k % r + j))), if k % r = 0 then k / r else k / r + 1⟩

theorem AtBit.init (r : Nat) (src : Src) (hr : 0 < r) : AtBit r src 0 GBState.init :=
  ⟨⟨hr, fun i _ => by simp [GBState.init]⟩, fun _ => rfl, fun _ => by simp [GBState.init, msbBits]⟩

theorem AtBit.word {r : Nat} {src : Src} (hr : 0 < r) (hr32 : r ≤ 32) (hw : Width r src) {k : Nat} {s : GBState}
    (h : AtBit r src k s) : ∃ w s', getRandBitsUint r src 32 0xffffffff s = .ok (w, s') ∧ AtBit r src (k + 32) s' ∧
      ∀ j < 32, w.getLsbD j = msbCat r src (k + 31 - j) := by
  obtain ⟨s', h1, h2, h3⟩ := getRandBitsUints_spec r src hr hr32 hw [(32, 0xffffffff)] s h.inv (by
    intro p hp
    simp only [List.mem_singleton] at hp
    subst hp
    exact ⟨le_refl _, Or.inl ⟨rfl, by decide⟩⟩)
  rw [getRandBitsUints] at h1
  obtain ⟨⟨w, s1⟩, h4, h1⟩ := Res.bind_eq_ok.1 h1
  simp only [getRandBitsUints, Res.bind_ok, Res.ok.injEq, Prod.mk.injEq] at h1
  obtain ⟨h5, rfl⟩ := h1
  simp only [List.map_cons, List.map_nil, Queue.serve] at h3 h5
  refine ⟨w, s1, h4, ?_, ?_⟩
  · refine ⟨h2, ?_, ?_⟩
    · intro h32
      rw [if_pos h32.symm] at h3
      have := h.whole h32
      have h6 := congrArg Queue.pos h3
      simp only at h6
      omega
    · intro h32
      rw [if_neg (fun e => h32 e.symm), h.queue h32, popN_stream r src hr 32 k] at h3
      exact h3.symm
  · by_cases h32 : r = 32
    · rw [if_pos h32.symm] at h5
      simp only [List.cons.injEq, and_true] at h5
      have := h.whole h32
      intro j hj
      rw [h5, msbCat, ← this, h32]
      have e1 : (s.pos * 32 + 31 - j) / 32 = s.pos := by omega
      have e2 : 32 - 1 - (s.pos * 32 + 31 - j) % 32 = j := by omega
      rw [e1, e2]
    · rw [if_neg (fun e => h32 e.symm), h.queue h32, popN_stream r src hr 32 k] at h5
      simp only [List.cons.injEq, and_true] at h5
      intro j hj
      rw [h5, valMsb_getLsbD _ _ (by omega)]
      have e1 : 31 - j < 32 := by omega
      have e2 : k + (31 - j) = k + 31 - j := by omega
      simp [hj, List.getElem?_range e1, msbCat, e2]

theorem rankFill_spec {r : Nat} {src : Src} (hr : 0 < r) (hr32 : r ≤ 32) (hw : Width r src) (junk : List UInt) :
    ∀ (rows k : Nat) (s : GBState), AtBit r src k s →
    ∃ m s', rankFill r src junk rows s = .ok (m, s') ∧ AtBit r src (k + 32 * rows) s' ∧ m.length = rows ∧
      (∀ row ∈ m, 1 ≤ row.length) ∧
      ∀ i < rows, ∀ j < 32, ((m.getD i []).getD 0 0).getLsbD j = msbCat r src (k + 32 * i + 31 - j) := by
  intro rows
  induction rows with
  | zero => intro k s h; exact ⟨[], s, rfl, by simpa using h, rfl, by simp, fun i hi => by omega⟩
  | succ rows ih =>
    intro k s h
    obtain ⟨w, s1, h1, h2, h3⟩ := h.word hr hr32 hw
    obtain ⟨m, s2, h4, h5, h6, h7, h8⟩ := ih (k + 32) s1 h2
    refine ⟨(w :: junk) :: m, s2, ?_, ?_, by simp [h6], ?_, ?_⟩
    · rw [rankFill, h1]; simp only [Res.bind_ok]; rw [h4]; rfl
    · rw [show k + 32 * (rows + 1) = k + 32 + 32 * rows by omega]; exact h5
    · intro row hrow
      rcases List.mem_cons.1 hrow with e | e
      · subst e; simp
      · exact h7 row e
    · intro i hi j hj
      cases i with
      | zero => simpa using h3 j hj
      | succ i =>
        rw [List.getD_cons_succ, h8 i (by omega) j hj]
        congr 1
        omega

/-- Bit matrix number `t` of a rank test with `m` rows read from a generator with `r`-bit values: row `i` is the `i`-th group of 32
bits after the `m t` groups of the earlier matrices, column `j` is bit `j` of that group counted from its last (least significant)
bit. -/
def Spec.sampleMatrix (r : Nat) (src : Src) (m n t : Nat) : Matrix (Fin m) (Fin n) (ZMod 2) :=
  fun i j => if msbCat r src (32 * (m * t + i) + (31 - j)) then 1 else 0

theorem rankSamples_spec {r : Nat} {src : Src} (hr : 0 < r) (hr32 : r ≤ 32) (hw : Width r src) (junk : List UInt)
    (mrows ncols lo : Nat) (hn : ncols ≤ 32) (hlo : lo ≤ mrows) (f0 : List Nat) (hf0 : mrows < f0.length) :
    ∀ (todo t : Nat) (x : List Nat) (s : GBState), AtBit r src (32 * (mrows * t)) s →
    Tallied f0 ((List.range t).map fun t => max lo (sampleMatrix r src mrows ncols t).rank) x →
    ∃ x' s', rankSamples r src junk mrows ncols lo todo x s = .ok (x', s') ∧ AtBit r src (32 * (mrows * (t + todo))) s' ∧
      Tallied f0 ((List.range (t + todo)).map fun t => max lo (sampleMatrix r src mrows ncols t).rank) x' := by
  intro todo
  induction todo with
  | zero => intro t x s h ht; exact ⟨x, s, rfl, h, ht⟩
  | succ todo ih =>
    intro t x s h ht
    obtain ⟨m, s1, h1, h2, h3, h4, h5⟩ := rankFill_spec hr hr32 hw junk mrows _ s h
    have hm : bitMatrix m mrows ncols = sampleMatrix r src mrows ncols t := by
      funext i j
      have hj := j.isLt
      have e1 : (j : Nat) / 32 = 0 := by omega
      have e2 : (j : Nat) % 32 = j := by omega
      rw [bitMatrix, sampleMatrix, e1, e2, h5 i i.isLt j (by omega)]
      have e3 : 32 * (mrows * t) + 32 * (i : Nat) + 31 - j = 32 * (mrows * t + i) + (31 - j) := by omega
      rw [e3]
    have hrank := C10_binary_rank m ncols hn h4
    rw [h3, hm] at hrank
    have hle : (sampleMatrix r src mrows ncols t).rank ≤ mrows := by
      have := Matrix.rank_le_card_height (sampleMatrix r src mrows ncols t)
      simpa using this
    obtain ⟨x1, h6, h7⟩ := ht.bump (i := max lo (sampleMatrix r src mrows ncols t).rank) (by omega)
    have h8 : (if (sampleMatrix r src mrows ncols t).rank ≤ lo then bump x lo
        else bump x (sampleMatrix r src mrows ncols t).rank) = .ok x1 := by
      rw [← h6]
      split
      · rw [max_eq_left (by assumption)]
      · rw [max_eq_right (by omega)]
    have h9 : Tallied f0 ((List.range (t + 1)).map fun t => max lo (sampleMatrix r src mrows ncols t).rank) x1 := by
      rw [List.range_succ, List.map_append]; exact h7
    have h10 : AtBit r src (32 * (mrows * (t + 1))) s1 := by
      rw [show 32 * (mrows * (t + 1)) = 32 * (mrows * t) + 32 * mrows by ring]; exact h2
    obtain ⟨x', s', h11, h12, h13⟩ := ih (t + 1) x1 s1 h10 h9
    refine ⟨x', s', ?_, by rwa [show t + (todo + 1) = t + 1 + todo by omega], by rwa [show t + (todo + 1) = t + 1 + todo by omega]⟩
    rw [rankSamples, h1]
    simp only [Res.bind_ok]
    rw [hrank]
    simp only [Res.bind_ok]
    rw [h8]
    exact h11

end Dh
