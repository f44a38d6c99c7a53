import Verif.Basic
/-
Model of `binary_rank`, libdieharder/rank.c:31-201.
-/
namespace Dh

/-- `for(k=i;k<mrows;k++) if(mtx[k][col_ind]&mask) break;` (rank.c:102-109); `todo` is
`mrows-k`.  Returns the final `k`. -/
def rankFind (mtx : List (List UInt)) (col : Nat) (mask : UInt) : (todo k : Nat) → Res Nat
  | 0, k => .ok k
  | todo + 1, k => do
    let row ← rd mtx k
    let x ← rd row col
    if x &&& mask ≠ 0 then .ok k else rankFind mtx col mask todo (k + 1)

/-- `while (n >= 0) { mtx[k][n] ^= mtx[i][n]; n--; }` (rank.c:170-176); the first argument is
`n+1`. -/
def rankXor (rowi : List UInt) : (n1 : Nat) → (rowk : List UInt) → Res (List UInt)
  | 0, rowk => .ok rowk
  | n + 1, rowk => do
    let a ← rd rowk n
    let b ← rd rowi n
    let rowk ← wr rowk n (a ^^^ b)
    rankXor rowi n rowk

/-- `while(k<mrows)` elimination loop (rank.c:154-184); `todo` is `mrows-k`, `n1` is
`uint_col_max - col_ind + 1`. -/
def rankElim (i col : Nat) (mask : UInt) (n1 : Nat) :
    (todo k : Nat) → (mtx : List (List UInt)) → Res (List (List UInt))
  | 0, _, mtx => .ok mtx
  | todo + 1, k, mtx => do
    let rowk ← rd mtx k
    let x ← rd rowk col
    if x &&& mask ≠ 0 then
      let rowi ← rd mtx i
      let rowk ← rankXor rowi n1 rowk
      let mtx ← wr mtx k rowk
      rankElim i col mask n1 todo (k + 1) mtx
    else rankElim i col mask n1 todo (k + 1) mtx

/-- The loop over bit columns (rank.c:78-197); `todo` is `ncols-j`.  `i < mrows` is the
second half of the loop condition. -/
def rankLoop (mrows ncols : Nat) : (todo j i : Nat) → (mask : UInt) → (mtx : List (List UInt)) → Res Nat
  | 0, _, i, _, _ => .ok i
  | todo + 1, j, i, mask, mtx =>
    if i < mrows then do
      let col := j / 32
      let mask := if j % 32 ≠ 0 then mask <<< 1 else 1
      let k ← rankFind mtx col mask (mrows - i) i
      if k < mrows then do
        let rowi ← rd mtx i
        let rowk ← rd mtx k
        let mtx ← wr mtx i rowk
        let mtx ← wr mtx k rowi
        let mtx ← rankElim i col mask ((ncols - 1) / 32 - col + 1) (mrows - (k + 1)) (k + 1) mtx
        rankLoop mrows ncols todo (j + 1) (i + 1) mask mtx
      else rankLoop mrows ncols todo (j + 1) i mask mtx
    else .ok i

/-- `binary_rank`, rank.c:31-201 (debugging output omitted).  The pointer swap (134-136) is a
swap of rows; it is the identity when `i == k` (130). -/
def binaryRank (mtx : List (List UInt)) (mrows ncols : Nat) : Res Nat :=
  rankLoop mrows ncols ncols 0 0 1 mtx

end Dh
