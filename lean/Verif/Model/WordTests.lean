import Verif.Model.Sts
import Verif.Model.Tally
/-
The tallies of rgb_bitdist.c, dab_bytedistrib.c and dab_monobit2.c.
-/
namespace Dh

/-! ### rgb_bitdist.c -/

/-- The loop over `b`, rgb_bitdist.c:233-248: `count[value]++` for `bsamples` values of
`get_rand_bits_uint(nb,mask,rng)`, which are `vals pos, vals (pos+1), ...`. -/
def bitdistCount (vals : Nat → UInt) : (todo pos : Nat) → List Nat → Res (List Nat)
  | 0, _, count => .ok count
  | todo + 1, pos, count => do
    let count ← bump count (vals pos).toNat
    bitdistCount vals todo (pos + 1) count

/-- The body of the loop over `i`, rgb_bitdist.c:256-263, for one row `x = vtest[i].x`; the entries are
doubles that hold integers. -/
def bitdistRow (x : List Int) (c : Nat) : Res (List Int) :=
  if c ≠ 0 then do
    let a ← rd x c
    let x ← wr x c (a + 1)
    let z ← rd x 0
    wr x 0 (z - 1)
  else .ok x

/-- The loop over `i`, rgb_bitdist.c:255-267.  Step `i` touches only `count[i]` and `vtest[i]`, so it is
written as a recursion over both arrays, which have `value_max` entries; it leaves `count` all zero (259). -/
def bitdistRows : List Nat → List (List Int) → Res (List (List Int))
  | c :: cs, x :: xs => do
    let x ← bitdistRow x c
    let xs ← bitdistRows cs xs
    pure (x :: xs)
  | _, xs => .ok xs

/-- The loop over `t`, rgb_bitdist.c:227-271. -/
def bitdistLoop (nb : Nat) (vals : Nat → UInt) : (todo pos : Nat) → List (List Int) → Res (List (List Int))
  | 0, _, vt => .ok vt
  | todo + 1, pos, vt => do
    let count ← bitdistCount vals 64 pos (List.replicate (2 ^ nb) 0)
    let vt ← bitdistRows count vt
    bitdistLoop nb vals todo (pos + 64) vt

/-- `rgb_bitdist`, rgb_bitdist.c:84-271: the rows `vtest[i].x` at the end.  `ntuple <= 0` leaves the program
(93-98); for `nb >= 32` the conversion of 105 or the shift of 161 is undefined.  The arrays are taken to be
allocated (128-129). -/
def bitdist (nb : Nat) (vals : Nat → UInt) (tsamples : Nat) : Res (List (List Int)) :=
  if nb = 0 then .exit
  else if nb < 32 then
    bitdistLoop nb vals tsamples 0 (List.replicate (2 ^ nb) ((tsamples : Int) :: List.replicate 64 0))
  else .ub

/-! ### dab_bytedistrib.c -/

/-- The loop over `j`, dab_bytedistrib.c:51-74.  `shiftAmount` and `currentShift` are `unsigned char`, and
`rmax_bits - 8` is a difference of `unsigned int`s; a negative shift count is undefined like a large one. -/
def bytesOfWord (rmaxBits i : Nat) : (todo j : Nat) → (word : UInt) → (currentShift : Nat) → List Nat →
    Res (List Nat)
  | 0, _, _, _, counts => .ok counts
  | todo + 1, j, word, currentShift, counts => do
    let shiftAmount := ((j + 1) * ((rmaxBits + 2 ^ 32 - 8) % 2 ^ 32) % 2 ^ 32) / 2 % 256
    let v := (word &&& 0xff#32).toNat
    let word ← (if currentShift ≤ shiftAmount then shr word (shiftAmount - currentShift) else .ub : Res UInt)
    let counts ← bump counts (v * 9 + i * 3 + j)
    bytesOfWord rmaxBits i todo (j + 1) word ((currentShift + shiftAmount) % 256) counts

/-- The loop over `i`, dab_bytedistrib.c:44-75. -/
def bytesOfSample (rmaxBits : Nat) (src : Src) : (todo i pos : Nat) → List Nat → Res (List Nat)
  | 0, _, _, counts => .ok counts
  | todo + 1, i, pos, counts => do
    let counts ← bytesOfWord rmaxBits i 3 0 (src pos) 0 counts
    bytesOfSample rmaxBits src todo (i + 1) (pos + 1) counts

/-- The loop over `t`, dab_bytedistrib.c:43-76. -/
def bytedistribLoop (rmaxBits : Nat) (src : Src) : (todo pos : Nat) → List Nat → Res (List Nat)
  | 0, _, counts => .ok counts
  | todo + 1, pos, counts => do
    let counts ← bytesOfSample rmaxBits src 3 0 pos counts
    bytedistribLoop rmaxBits src todo (pos + 3) counts

/-- The table `counts` of `dab_bytedistrib`, dab_bytedistrib.c:33-76. -/
def bytedistrib (rmaxBits : Nat) (src : Src) (tsamples : Nat) : Res (List Nat) :=
  bytedistribLoop rmaxBits src tsamples 0 (List.replicate 2304 0)

/-! ### dab_monobit2.c -/

/-- The loop over `j`, dab_monobit2.c:76-84, on word number `i` with `n` ones; `t` is `1 << j`.  The `uint`s
`tempCount[j]` are natural numbers here; see `monobit2_spec` for the bound that makes this harmless. -/
def monobit2Word (blens : Nat) (i : UInt) (n : Nat) : (todo j : Nat) → (t : UInt) → (counts temp : List Nat) →
    Res (List Nat × List Nat)
  | 0, _, _, counts, temp => .ok (counts, temp)
  | todo + 1, j, t, counts, temp => do
    let x ← rd temp j
    let temp ← wr temp j (x + n)
    let (counts, temp) ← (if t &&& i ≠ 0 ∧ t &&& (i - 1) = 0 then do
        let counts ← bump counts (blens * (2 ^ (j + 1) - 1) + (x + n))
        let temp ← wr temp j 0
        pure (counts, temp)
      else pure (counts, temp) : Res (List Nat × List Nat))
    monobit2Word blens i n todo (j + 1) (t <<< 1) counts temp

/-- The loop over `i`, dab_monobit2.c:59-85; the bit counting of 63-74 is that of sts_monobit.c. -/
def monobit2Loop (blens ntup : Nat) (src : Src) : (todo i : Nat) → (counts temp : List Nat) → Res (List Nat × List Nat)
  | 0, _, counts, temp => .ok (counts, temp)
  | todo + 1, i, counts, temp => do
    let n := (monobitCount (src i)).toNat
    let (counts, temp) ← monobit2Word blens (BitVec.ofNat 32 i) n ntup 0 1 counts temp
    monobit2Loop blens ntup src todo (i + 1) counts temp

/-- The table `counts` of `dab_monobit2`, dab_monobit2.c:53-85, for the number of levels `ntup` chosen in 38-49
(at most 16; for the choice made for `ntuple == 0` see Model/Monobit2.lean).  The counts are doubles that hold natural
numbers. -/
def monobit2 (rmaxBits ntup : Nat) (src : Src) (tsamples : Nat) : Res (List Nat) := do
  let (counts, _) ← monobit2Loop rmaxBits ntup src tsamples 0 (List.replicate (rmaxBits * 2 ^ (ntup + 1)) 0)
    (List.replicate ntup 0)
  pure counts

end Dh
