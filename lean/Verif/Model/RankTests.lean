import Verif.Model.Rank
import Verif.Model.GetBitsUint
import Verif.Model.Vtest
import Verif.Model.Tally
/-
Model of diehard_rank_32x32.c and diehard_rank_6x8.c.
-/
namespace Dh

/-- The row loop, diehard_rank_32x32.c:89-101 and diehard_rank_6x8.c:83-95 (debugging output omitted): every row gets a new
first word.  `junk` are the remaining words of a row: none in the 32x32 test (line 48), seven indeterminate ones in the 6x8 test
(line 53).  `binary_rank` permutes and overwrites the rows, but every first word is replaced before the next call. -/
def rankFill (r : Nat) (src : Src) (junk : List UInt) : (rows : Nat) → GBState → Res (List (List UInt) × GBState)
  | 0, s => .ok ([], s)
  | rows + 1, s => do
    let (w, s) ← getRandBitsUint r src 32 0xffffffff s
    let (m, s) ← rankFill r src junk rows s
    .ok ((w :: junk) :: m, s)

/-- The sample loop, diehard_rank_32x32.c:83-116 (`lo = 29`) and diehard_rank_6x8.c:73-107 (`lo = 2`).  The counts are doubles that
are incremented by one. -/
def rankSamples (r : Nat) (src : Src) (junk : List UInt) (mrows ncols lo : Nat) :
    (todo : Nat) → (x : List Nat) → GBState → Res (List Nat × GBState)
  | 0, x, s => .ok (x, s)
  | todo + 1, x, s => do
    let (m, s) ← rankFill r src junk mrows s
    let rank ← binaryRank m mrows ncols
    let x ← (if rank ≤ lo then bump x lo else bump x rank : Res (List Nat))
    rankSamples r src junk mrows ncols lo todo x s

/-- `diehard_rank_32x32`, diehard_rank_32x32.c:32-135 up to the p-value: what `Vtest_eval` returns (line 120).  The initialisation
57-60 writes cell 0 only; `Vtest_create` has zeroed every cell. -/
def diehardRank32 (r : Nat) (src : Src) (tsamples : Nat) (s : GBState) : Res (Vtest × GBState) := do
  let v := vtestCreate 33
  let y ← wr v.y 29 (tsamples * (52854502 / 10 ^ 10))
  let y ← wr y 30 (tsamples * (1283502644 / 10 ^ 10))
  let y ← wr y 31 (tsamples * (5775761902 / 10 ^ 10))
  let y ← wr y 32 (tsamples * (2887880952 / 10 ^ 10))
  let (x, s) ← rankSamples r src [] 32 32 29 tsamples (List.replicate 33 0) s
  let v ← vtestEval { v with cutoff := 5, x := x.map Nat.cast, y := y }
  .ok (v, s)

/-- `diehard_rank_6x8`, diehard_rank_6x8.c:33-126 up to the p-value: what `Vtest_eval` returns (line 111).  The initialisation
58-61 writes cell 0 only. -/
def diehardRank68 (r : Nat) (src : Src) (junk : List UInt) (tsamples : Nat) (s : GBState) : Res (Vtest × GBState) := do
  let v := vtestCreate 7
  let y ← wr v.y 2 (tsamples * (149858 / 10 ^ 12))
  let y ← wr y 3 (tsamples * (808926 / 10 ^ 10))
  let y ← wr y 4 (tsamples * (936197 / 10 ^ 8))
  let y ← wr y 5 (tsamples * (217439 / 10 ^ 6))
  let y ← wr y 6 (tsamples * (773118 / 10 ^ 6))
  let (x, s) ← rankSamples r src junk 6 8 2 tsamples (List.replicate 7 0) s
  let v ← vtestEval { v with cutoff := 5, x := x.map Nat.cast, y := y }
  .ok (v, s)

end Dh
