import Mathlib.Data.Nat.Factorial.Basic
import Verif.Model.UintRand
import Verif.Model.Tally
/-
diehard_operm5.c and rgb_permutations.c: order patterns.
-/
namespace Dh

/-! ### diehard_operm5.c -/

/-- The search for the last maximum, diehard_operm5.c:99-104; `w` is the array `int w[5]`, whose indices are at
most `i <= 4`. -/
def kpermMax (w : Nat → Int) : (todo j : Nat) → (max : Int) → (k : Nat) → Nat
  | 0, _, _, k => k
  | todo + 1, j, max, k => if max ≤ w j then kpermMax w todo (j + 1) (w j) j else kpermMax w todo (j + 1) max k

/-- `tmp = w[i]; w[i] = w[k]; w[k] = tmp`, diehard_operm5.c:106-108. -/
def kpermSwap (w : Nat → Int) (i k : Nat) : Nat → Int := fun x => if x = k then w i else if x = i then w k else w x

/-- The loop over `i`, diehard_operm5.c:96-112, from `i` down to 1. -/
def kpermLoop : (i : Nat) → (w : Nat → Int) → (pindex : Nat) → Nat
  | 0, _, pindex => pindex
  | i + 1, w, pindex =>
    let k := kpermMax w (i + 1) 1 (w 0) 0
    kpermLoop i (kpermSwap w (i + 1) k) ((i + 1 + 1) * pindex + k)

/-- `kperm`, diehard_operm5.c:73-122.  The elements of `v` are `unsigned int`s, those of `w` are `int`s (77, 86). -/
def kperm (v : Nat → UInt) (voffset : Nat) : Nat :=
  kpermLoop 4 (fun i => (v ((i + voffset) % 5)).toInt) 0

/-- The loop over `t` with `overlap` set, diehard_operm5.c:163-167; `v` is the array `uint v[5]`. -/
def operm5Loop (src : Src) : (todo pos : Nat) → (v : Nat → UInt) → (vind : Nat) → List Nat → Res (List Nat)
  | 0, _, _, _, count => .ok count
  | todo + 1, pos, v, vind, count => do
    let count ← bump count (kperm v vind)
    operm5Loop src todo (pos + 1) (fun x => if x = vind then src pos else v x) ((vind + 1) % 5) count

/-- The loop over `t` with `overlap` not set, diehard_operm5.c:168-174. -/
def operm5NoLoop (src : Src) : (todo pos : Nat) → List Nat → Res (List Nat)
  | 0, _, count => .ok count
  | todo + 1, pos, count => do
    let count ← bump count (kperm (fun i => src (pos + i)) 0)
    operm5NoLoop src todo (pos + 5) count

/-- The array `count` of `diehard_operm5`, diehard_operm5.c:135-175; the counts are doubles that hold natural numbers. -/
def operm5 (overlap : Bool) (src : Src) (tsamples : Nat) : Res (List Nat) :=
  if overlap then operm5Loop src tsamples 5 src 0 (List.replicate 120 0)
  else operm5NoLoop src tsamples 5 (List.replicate 120 0)

/-! ### rgb_permutations.c -/

/-- The search of rgb_permutations.c:120-130: the number of the first entry of `lookup` equal to `ps`, otherwise the old
value of `permindex`. -/
def permSearch (ps : List Nat) (old : Nat) : List (List Nat) → (i : Nat) → Nat
  | [], _ => old
  | p :: lookup, i => if ps = p then i else permSearch ps old lookup (i + 1)

/-- The loop over `t`, rgb_permutations.c:101-137.  `sortIndex` is `gsl_sort_index` and `lookup` the table of
permutations made with `gsl_permutation_next` in 69-80. -/
def permLoop (k : Nat) (sortIndex : List UInt → List Nat) (lookup : List (List Nat)) (src : Src) :
    (todo pos permindex : Nat) → List Nat → Res (List Nat)
  | 0, _, _, x => .ok x
  | todo + 1, pos, permindex, x => do
    let testv := (List.range k).map (fun i => src (pos + i))
    let permindex := permSearch (sortIndex testv) permindex lookup 0
    let x ← bump x permindex
    permLoop k sortIndex lookup src todo (pos + k) permindex x

/-- The counts `vtest.x` of `rgb_permutations`, rgb_permutations.c:39-137.  `nperms` is an `unsigned int` computed from
the double `gsl_sf_fact(k)`, which is undefined when the factorial does not fit. -/
def rgbPermutations (ntuple : Nat) (sortIndex : List UInt → List Nat) (lookup : Nat → List (List Nat)) (src : Src)
    (tsamples : Nat) : Res (List Nat) :=
  let k := if ntuple < 2 then 5 else ntuple
  if k.factorial < 2 ^ 32 then permLoop k sortIndex (lookup k) src tsamples 0 0 (List.replicate k.factorial 0)
  else .ub

end Dh
