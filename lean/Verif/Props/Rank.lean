import Verif.Proof.Rank
/-
C10: rank of bit matrices.
-/
namespace Dh
open Spec

/-- **C10.** For matrices of at most 32 columns and any number of rows, `binary_rank` returns the
rank over GF(2).  Every use in dieharder has at most 32 columns; beyond 32 columns the result may
differ from the rank, see `C10_wrong_rank`. -/
theorem C10_binary_rank (mtx : List (List UInt)) (ncols : Nat) (hn : ncols ≤ 32)
    (hrows : ∀ row ∈ mtx, 1 ≤ row.length) :
    binaryRank mtx mtx.length ncols = .ok (bitMatrix mtx mtx.length ncols).rank := by
  unfold binaryRank
  apply rankLoop_spec ncols hn mtx ncols 0 0 1 mtx (by omega)
  · exact ⟨rfl, hrows, rfl, Nat.zero_le _, fun t _ _ c hc => by omega, fun _ _ t ht => by omega⟩
  · intro h; omega

/-- A 4x8 matrix whose third row is the sum of the first two and whose fourth repeats the
first: rank 2. -/
example : binaryRank [[0x96], [0x3C], [0xAA], [0x96]] 4 8 = .ok 2 := by decide +kernel

theorem rankLoop_le (mrows ncols : Nat) : ∀ (todo j i : Nat) (mask : UInt) (mtx : List (List UInt)) (v : Nat),
    i ≤ mrows → rankLoop mrows ncols todo j i mask mtx = .ok v → v ≤ mrows ∧ v ≤ i + todo := by
  intro todo
  induction todo with
  | zero =>
    intro j i mask mtx v hi h
    rw [rankLoop] at h
    cases h
    exact ⟨hi, by omega⟩
  | succ todo ih =>
    intro j i mask mtx v hi h
    rw [rankLoop] at h
    by_cases hlt : i < mrows
    · rw [if_pos hlt] at h
      obtain ⟨k, _, h⟩ := Res.bind_eq_ok.1 h
      by_cases hk : k < mrows
      · rw [if_pos hk] at h
        obtain ⟨_, _, h⟩ := Res.bind_eq_ok.1 h
        obtain ⟨_, _, h⟩ := Res.bind_eq_ok.1 h
        obtain ⟨_, _, h⟩ := Res.bind_eq_ok.1 h
        obtain ⟨_, _, h⟩ := Res.bind_eq_ok.1 h
        obtain ⟨_, _, h⟩ := Res.bind_eq_ok.1 h
        have := ih _ _ _ _ _ (by omega) h
        omega
      · rw [if_neg hk] at h
        have := ih _ _ _ _ _ hi h
        omega
    · rw [if_neg hlt] at h
      cases h
      omega

/-- **C10.** Whatever the size, a returned rank lies between 0 and `min mrows ncols`. -/
theorem C10_rank_range (mtx : List (List UInt)) (mrows ncols v : Nat)
    (h : binaryRank mtx mrows ncols = .ok v) : v ≤ min mrows ncols := by
  have := rankLoop_le mrows ncols ncols 0 0 1 mtx v (Nat.zero_le _) h
  omega

example : binaryRank [[0, 3], [5, 3], [7, 1]] 3 34 = .ok 3 := by decide +kernel

/-- **C10, negation of the full claim.** With 34 columns two equal rows are reported to have
rank 2. -/
theorem C10_wrong_rank :
    binaryRank [[0, 3], [0, 3]] 2 34 = .ok 2 ∧ (bitMatrix [[0, 3], [0, 3]] 2 34).rank ≤ 1 := by
  refine ⟨by decide +kernel, ?_⟩
  rw [Matrix.rank_eq_finrank_span_row]
  have : Set.range (bitMatrix [[0, 3], [0, 3]] 2 34).row ⊆ {(bitMatrix [[0, 3], [0, 3]] 2 34).row 0} := by
    rintro v ⟨i, rfl⟩
    have : i = 0 ∨ i = 1 := by omega
    rcases this with h | h <;> subst h
    · rfl
    · simp only [Set.mem_singleton_iff]
      funext c
      rfl
  calc _ ≤ Module.finrank (ZMod 2) (Submodule.span (ZMod 2) {(bitMatrix [[0, 3], [0, 3]] 2 34).row 0}) :=
        Submodule.finrank_mono (Submodule.span_mono this)
    _ ≤ 1 := by
        refine (finrank_span_le_card {(bitMatrix [[0, 3], [0, 3]] 2 34).row 0}).trans ?_
        simp

end Dh
