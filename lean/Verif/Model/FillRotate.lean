import Verif.Model.FillStat
import Verif.Model.Dct
/-
dab_filltree.c with the rotation of the draws.  (Model/FillTree.lean has the keys after the rotation.)
-/
namespace Dh

/-- The loop `do ... while (ret == -1)`, dab_filltree.c:76-86, with `x = RotL(v, rotAmount)`.  The result is as in `ftTree`. -/
def ftTreeR (masked : Bool) (rmaxBits : Nat) (rmaxMask : UInt) (src : Src) (rotAmount size : Nat) :
    (fuel pos i : Nat) → (array : List Nat) → Res (Option (Nat × Nat × Nat))
  | 0, _, _, _ => .loop
  | fuel + 1, pos, i, array => do
    let v ← rotL masked rmaxBits rmaxMask (src pos) rotAmount
    if i + 1 > size * 2 then .ok none else do
    let (ret, array) ← ftInsertTop v.toNat array size
    match ret with
    | none => ftTreeR masked rmaxBits rmaxMask src rotAmount size fuel (pos + 1) (i + 1) array
    | some r => .ok (some (r, i + 1, pos + 1))

/-- The loop over `j`, dab_filltree.c:72-91, with `if (j % (tsamples/CYCLES) == 0) rotAmount++` (90). -/
def ftLoopR (masked : Bool) (rmaxBits : Nat) (rmaxMask : UInt) (src : Src) (size tsamples : Nat) :
    (todo j rotAmount pos : Nat) → (counts position : List Nat) → Res (Option (List Nat × List Nat))
  | 0, _, _, _, counts, position => .ok (some (counts, position))
  | todo + 1, j, rotAmount, pos, counts, position => do
    match ← ftTreeR masked rmaxBits rmaxMask src rotAmount size (2 * size + 1) pos 0 (List.replicate size 0) with
    | none => .ok none
    | some (r, i, pos) => do
      let position ← bump position (r / 2)
      let counts ← bump counts (i - 1)
      let rotAmount ← (if tsamples / 4 = 0 then .ub else if j % (tsamples / 4) = 0 then .ok (rotAmount + 1) else .ok rotAmount : Res Nat)
      ftLoopR masked rmaxBits rmaxMask src size tsamples todo (j + 1) rotAmount pos counts position

/-- `dab_filltree`, dab_filltree.c:39-105, for `size >= 2`, with the rotation and its p-values (`none` if the function gave up); the test of
`size/2` is the loop of line 95, as in `fillTree`. -/
noncomputable def dabFilltree (gammaQ : ℝ → ℝ → ℝ) (masked : Bool) (rmaxBits : Nat) (rmaxMask : UInt) (src : Src) (ntuple tsamples : Nat) :
    Res (Option (ℝ × ℝ)) := do
  let size := if ntuple = 0 then 32 else ntuple
  let range ← ftRange ft1Table tsamples 20 0 (List.replicate 20 0) 0 0
  let t ← ftLoopR masked rmaxBits rmaxMask src size tsamples tsamples 0 0 0 (List.replicate 20 0) (List.replicate (size / 2) 0)
  let t ← (if t.isSome ∧ 20 < size / 2 then .ub else .ok t : Res (Option (List Nat × List Nat)))
  fillTreePvalues gammaQ size tsamples range t

end Dh
