import Verif.Model.NtupleCyclic
/-
Model of `get_uint_rand`, `get_rand_bits` and `reset_bit_buffers`, libdieharder/bits.c.
-/
namespace Dh

/-- A random generator seen through `gsl_rng_get`: the infinite sequence of values it
will return.  The number of draws made so far is kept in the states below. -/
abbrev Src := Nat → UInt

/-- Statics of `get_uint_rand` (bits.c:900-901) and the number of draws made from the
generator.  `bu` (906) is set to 32 on the first call and never changed; `bl` is never
used; `tmp` is only live inside a call. -/
structure URState where
  b0 : UInt
  b1 : UInt
  bleft : Int
  pos : Nat
  deriving DecidableEq, Repr

/-- Initial values of the statics (C zero initialisation and `bleft = -1`). -/
def URState.init : URState := ⟨0, 0, -1, 0⟩

/-- `while(bleft > rmax_bits)`, bits.c:945-965.  `bleft` is never negative here, so that
the unsigned comparison is the ordinary one. -/
def urLoop (r : Nat) (src : Src) : (fuel : Nat) → URState → Res URState
  | fuel, s =>
    if s.bleft > r then
      match fuel with
      | 0 => .loop
      | fuel + 1 => do
        let b0 := src s.pos
        let w ← bWindow b0 (u32 (32 - r)) (u32 31) (u32 (s.bleft - r))
        urLoop r src fuel ⟨b0, s.b1 + w, s.bleft - r, s.pos + 1⟩
    else .ok s

/-- `get_uint_rand`, bits.c:903-1012; `r` is the global `rmax_bits`. -/
def getUintRand (r : Nat) (src : Src) (s : URState) : Res (UInt × URState) := do
  -- first call, 912-939
  let s : URState := if s.bleft = -1 then ⟨0, src s.pos, 32 - r, s.pos + 1⟩ else s
  let s ← urLoop r src 32 s
  -- 971
  let b0 := src s.pos
  let pos := s.pos + 1
  -- 979-981
  let b1 ← (if s.bleft ≠ 0 then do
      let w ← bWindow b0 (u32 (32 - s.bleft)) (u32 31) (u32 0)
      pure (s.b1 + w)
    else pure s.b1 : Res UInt)
  -- 990-1009
  if s.bleft = r then .ok (b1, ⟨b0, b1, 32, pos⟩)
  else do
    let w ← bWindow b0 (u32 (32 - r)) (u32 (32 - s.bleft - 1)) (u32 (32 - r + s.bleft))
    .ok (b1, ⟨b0, w, 32 - r + s.bleft, pos⟩)

/-- The words returned by `k` successive calls of `get_uint_rand`, and the final state. -/
def getUintRands (r : Nat) (src : Src) : Nat → URState → Res (List UInt × URState)
  | 0, s => .ok ([], s)
  | k + 1, s => do
    let (x, s) ← getUintRand r src s
    let (xs, s) ← getUintRands r src k s
    .ok (x :: xs, s)

/-- Statics of `get_rand_bits` (bits.c:1028-1036) together with those of
`get_uint_rand`. -/
structure RBState where
  ur : URState
  buf : List UInt
  output : List UInt
  brindex : Int
  iclear : Int
  bitindex : Int
  deriving DecidableEq, Repr

/-- Initial values of all statics of bits.c. -/
def RBState.init : RBState :=
  ⟨URState.init, List.replicate 6 0, List.replicate 6 0, -1, -1, -1⟩

/-- The first-call loop `for(i=BRBUF-1;i>=0;i--) bits_randbuf[i] = get_uint_rand();`
(bits.c:1079-1082): indices 5,4,3,2,1,0. -/
def rbFill (r : Nat) (src : Src) : (i : Nat) → RBState → Res RBState
  | 0, s => .ok s
  | i + 1, s => do
    let (x, ur) ← getUintRand r src s.ur
    let buf ← wr s.buf i x
    rbFill r src i { s with ur := ur, buf := buf }

/-- The backfill loop, bits.c:1146-1149. -/
def rbBackfill (r : Nat) (src : Src) : (fuel : Nat) → RBState → Res RBState
  | fuel, s =>
    if s.iclear ≠ s.brindex then
      match fuel with
      | 0 => .loop
      | fuel + 1 => do
        let (x, ur) ← getUintRand r src s.ur
        let buf ← wrI s.buf s.iclear x
        let ic := s.iclear - 1
        rbBackfill r src fuel
          { s with ur := ur, buf := buf, iclear := if ic < 0 then ic + 6 else ic }
    else .ok s

/-- Memory bytes of a vector of words (little-endian platform). -/
def bytesOf (ws : List UInt) : List (BitVec 8) :=
  ws.flatMap fun w => [w.extractLsb' 0 8, w.extractLsb' 8 8, w.extractLsb' 16 8, w.extractLsb' 24 8]

/-- `get_rand_bits`, bits.c:1038-1193.  The result is the list of the `rsize` bytes stored
through `result`.  Reading before the start of `bits_output` (`rsize > 24`) is undefined
behaviour. -/
def getRandBits (r : Nat) (src : Src) (rsize nbits : Nat) (s : RBState) :
    Res (List (BitVec 8) × RBState) := do
  let zeros : List (BitVec 8) := List.replicate rsize 0
  if nbits = 0 then .ok (zeros, s) else
  if nbits > (6 - 2) * 32 then .ok (zeros, s) else
  if nbits > rsize * 8 then .ok (zeros, s) else
  -- first call, 1071-1094
  let s ← (if s.brindex = -1 then do
      let s ← rbFill r src 6 s
      pure { s with brindex := 6, iclear := 5, bitindex := 0 }
    else pure s : Res RBState)
  -- 1116-1123
  let brindex := s.brindex - (nbits / 32 : Nat)
  let bitindex := s.bitindex - (nbits % 32 : Nat)
  let brindex' := if bitindex < 0 then brindex - 1 else brindex
  let bitindex := if bitindex < 0 then bitindex + 32 else bitindex
  let brindex := if brindex' < 0 then brindex' + 6 else brindex'
  -- 1132-1136
  let offset := brindex * 32 + bitindex
  let out ← getNtupleCyclic s.buf 6 6 nbits offset.toNat
  -- 1146-1149
  let s ← rbBackfill r src 6
    { s with output := out, brindex := brindex, bitindex := bitindex }
  -- 1175-1191
  if rsize > 24 then .ub else
  .ok ((bytesOf s.output).drop (24 - rsize), s)

/-- `reset_bit_buffers`, bits.c:1425-1440.  The generator position is not a static of
bits.c and is kept. -/
def resetBitBuffers (s : RBState) : RBState :=
  ⟨⟨0, 0, -1, s.ur.pos⟩, List.replicate 6 0, List.replicate 6 0, -1, -1, -1⟩

/-- A 4-byte result read back as an `unsigned int` (little-endian). -/
def uintOfBytes (bs : List (BitVec 8)) : UInt :=
  (bs.getD 0 0).setWidth 32 ||| ((bs.getD 1 0).setWidth 32 <<< 8) |||
  ((bs.getD 2 0).setWidth 32 <<< 16) ||| ((bs.getD 3 0).setWidth 32 <<< 24)

/-- A history of requests `get_rand_bits(&x, sizeof(uint), n)`: the values of `x`. -/
def getRandBitsSeq (r : Nat) (src : Src) : List Nat → RBState → Res (List UInt × RBState)
  | [], s => .ok ([], s)
  | n :: ns, s => do
    let (b, s) ← getRandBits r src 4 n s
    let (xs, s) ← getRandBitsSeq r src ns s
    .ok (uintOfBytes b :: xs, s)

/-- A request made to bits.c by a test. -/
inductive Req where
  /-- `get_uint_rand(rng)` -/
  | uint
  /-- `get_rand_bits(result, rsize, nbits, rng)` -/
  | bits (rsize nbits : Nat)
  deriving DecidableEq, Repr

/-- A history of requests: the bytes handed out for each, and the final state. -/
def runReqs (r : Nat) (src : Src) : List Req → RBState → Res (List (List (BitVec 8)) × RBState)
  | [], s => .ok ([], s)
  | .uint :: qs, s => do
    let (x, ur) ← getUintRand r src s.ur
    let (xs, s) ← runReqs r src qs { s with ur := ur }
    .ok (bytesOf [x] :: xs, s)
  | .bits rsize n :: qs, s => do
    let (b, s) ← getRandBits r src rsize n s
    let (xs, s) ← runReqs r src qs s
    .ok (b :: xs, s)

end Dh
