import Verif.Model.Bits
/-
Model of `get_ntuple_cyclic`, libdieharder/bits.c:661-871.
-/
namespace Dh

/-- Array access with a C `int` index. -/
def rdI {α : Type u} (a : List α) (i : Int) : Res α :=
  if i < 0 then .ub else rd a i.toNat

/-- Array store with a C `int` index. -/
def wrI {α : Type u} (a : List α) (i : Int) (x : α) : Res (List α) :=
  if i < 0 then .ub else wr a i.toNat x

/-- A C `int` converted to `unsigned int` (argument passing to `b_window`). -/
def u32 (i : Int) : UInt := BitVec.ofInt 32 i

/-- `output[j] += b_window(input[i],a,b,o)` (bits.c:725, 780, 807, 828, 850). -/
def addWindow (input output : List UInt) (i j a b o : Int) : Res (List UInt) := do
  let x ← rdI input i
  let w ← bWindow x (u32 a) (u32 b) (u32 o)
  let y ← rdI output j
  wrI output j (y + w)

/-- `output[j] = b_window(input[i],a,b,o)` (bits.c:743, 763). -/
def setWindow (input output : List UInt) (i j a b o : Int) : Res (List UInt) := do
  let x ← rdI input i
  let w ← bWindow x (u32 a) (u32 b) (u32 o)
  wrI output j w

/-- The `while(bleft > 0)` loop, bits.c:754-869 (Rules 1, R, 2b, 2c, L in order);
`bu = 32`. -/
def cyclicLoop (input : List UInt) (ilen : Nat) (bs be br1 br2 : Int) :
    (fuel : Nat) → (i j bleft : Int) → (output : List UInt) → Res (List UInt)
  | fuel, i, j, bleft, output =>
    if bleft > 0 then
      match fuel with
      | 0 => .loop
      | fuel + 1 =>
        -- Rule 1 (759-771)
        if bleft = br1 then setWindow input output i j bs (be - 1) (32 - bleft)
        else do
          -- Rule Right (776-793); `bleft != 0` holds here
          let output ← addWindow input output i j 0 (be - 1) (32 - be)
          let bleft := bleft - be
          let i := if i - 1 < 0 then (ilen : Int) - 1 else i - 1
          -- Rule 2b (802-815)
          if bleft = br2 ∧ be = 32 then
            addWindow input output i (j - 1) bs 31 (32 - br2)
          -- Rule 2c (824-836)
          else if bleft = br2 ∧ br2 < 32 then
            addWindow input output i j bs 31 (bs - be)
          -- Rule Left (842-862)
          else if bleft ≠ 0 then
            if be ≠ 32 then do
              let output ← addWindow input output i j be 31 0
              cyclicLoop input ilen bs be br1 br2 fuel i (j - 1) (bleft - (32 - be)) output
            else cyclicLoop input ilen bs be br1 br2 fuel i (j - 1) bleft output
          else .ok output
    else .ok output

/-- `get_ntuple_cyclic`, bits.c:661-871.  The old contents of `output` are irrelevant
because it is zeroed (701).  `ntuple` and `offset` are `unsigned int`s whose sum does
not wrap (callers pass at most a few hundred).  `i = i%ilen` (693) is an unsigned
remainder; it is a division by zero for `ilen = 0`. -/
def getNtupleCyclic (input : List UInt) (ilen jlen ntuple offset : Nat) : Res (List UInt) := do
  let bs : Int := (offset % 32 : Nat)
  let be : Int := if (offset + ntuple) % 32 = 0 then 32 else ((offset + ntuple) % 32 : Nat)
  let br1 := be - bs
  let br2 := 32 - bs
  let i0 : Int := ((offset + ntuple) / 32 : Nat)
  let i0 := if be = 32 then i0 - 1 else i0
  if ilen = 0 then .ub else
  let i : Int := ((u32 i0).toNat % ilen : Nat)
  let j : Int := (jlen : Int) - 1
  let output := List.replicate jlen (0 : UInt)
  let bleft : Int := ntuple
  -- Rule 2a (721-732)
  let p ← (if bleft = br2 then do
      let o ← addWindow input output i j bs 31 (32 - br2)
      pure (o, bleft - br2)
    else pure (output, bleft) : Res (List UInt × Int))
  -- Rule 1a (739-750)
  let p ← (if p.2 = br1 then do
      let o ← setWindow input p.1 i j bs (be - 1) (32 - p.2)
      pure (o, p.2 - br1)
    else pure p : Res (List UInt × Int))
  cyclicLoop input ilen bs be br1 br2 (ntuple + 1) i j p.2 p.1

end Dh
