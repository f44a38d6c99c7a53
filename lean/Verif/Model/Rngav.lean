import Verif.Model.Countx
/-
Model of libdieharder/rngav.c (another test program of Bob Jenkins, which nothing calls), with 64-bit `u4` as in countx.c.  The loop of `main_rngav` over the
rotations and the clock are left out: the rotations are parameters.  Numbers become doubles without rounding (all are below 2^53 where it matters).
-/
namespace Dh

/-- `ranval`, rngav.c:29-36; `rot` is the macro of countx.c (rngav.c:25). -/
def ranvalAv (i j k : Nat) (x : RanCtx) : BitVec 64 × RanCtx :=
  let e := x.a - rotCx x.b i
  let a := x.b ^^^ rotCx x.c j
  let b := x.c + rotCx x.d k
  let c := x.d + e
  let d := e + a
  (d, ⟨a, b, c, d⟩)

/-- The reverse of it according to the part that is not compiled, rngav.c:38-43: the state. -/
def unranvalAv (i j k : Nat) (x : RanCtx) : RanCtx :=
  let e := x.d - x.a
  let d := x.c - e
  let c := x.b - rotCx d (32 - k)
  let b := x.a ^^^ rotCx c (32 - j)
  let a := e + rotCx b (32 - i)
  ⟨a, b, c, d⟩

/-- `raninit`, rngav.c:48-56. -/
def raninitAv (i j k : Nat) (seed : BitVec 64) : RanCtx :=
  (fun x => (ranvalAv i j k x).2)^[20] ⟨0xf1ea5eed, 0xf1ea5eed, 0xf1ea5eed, seed - 0xf1ea5eed⟩

/-- `count`, rngav.c:59-69. -/
def countAv (c : BitVec 64) : BitVec 64 :=
  foldCx 0x0000ffff 16 (foldCx 0x00ff00ff 8 (foldCx 0x0f0f0f0f 4 (foldCx 0x33333333 2 (foldCx 0x55555555 1 c))))

/-- `1<<n` for an `int`; `bit31` is what the compiler makes of `1<<31`, which the standard leaves undefined. -/
def oneAv (bit31 : Res (BitVec 64)) (n : Nat) : Res (BitVec 64) := if n < 31 then .ok (1 <<< n) else if n = 31 then bit31 else .ub

/-- The change of one bit, rngav.c:91-98. -/
def flipAv (bit31 : Res (BitVec 64)) (i : Nat) (y : RanCtx) : Res RanCtx :=
  if i < 32 then do
    let m ← oneAv bit31 i
    .ok { y with a := y.a ^^^ m }
  else if i < 64 then do
    let m ← oneAv bit31 (i - 32)
    .ok { y with b := y.b ^^^ m }
  else if i < 96 then do
    let m ← oneAv bit31 (i - 64)
    .ok { y with c := y.c ^^^ m }
  else do
    let m ← oneAv bit31 (i - 96)
    .ok { y with d := y.d ^^^ m }

/-- The loop over `j` in `gather`, rngav.c:99-101: the last `h` and the state of `x`. -/
def pairAv (ri rj rk : Nat) : (todo : Nat) → RanCtx → RanCtx → BitVec 64 → BitVec 64 × RanCtx
  | 0, x, _, h => (h, x)
  | todo + 1, x, y, _ =>
    let (u, x) := ranvalAv ri rj rk x
    let (v, y) := ranvalAv ri rj rk y
    pairAv ri rj rk todo x y (u ^^^ v)

/-- The loop over `k` in `gather`, rngav.c:89-105. -/
def trialsAv (ri rj rk : Nat) (bit31 : Res (BitVec 64)) (i : Nat) : (todo : Nat) → RanCtx → List (BitVec 64) → List (BitVec 64) →
    Res (RanCtx × List (BitVec 64) × List (BitVec 64))
  | 0, x, data, data2 => .ok (x, data, data2)
  | todo + 1, x, data, data2 => do
    let y ← flipAv bit31 i x
    let (h, x) := pairAv ri rj rk 4 x y 0
    let t ← rd data i
    let data ← wr data i (t + countAv h)
    let h := h ^^^ (h <<< 1)
    let t ← rd data2 i
    let data2 ← wr data2 i (t + countAv h)
    trialsAv ri rj rk bit31 i todo x data data2

/-- The loop over `i` in `gather`, rngav.c:88-106, from bucket `128 - todo` on. -/
def bucketsAv (ri rj rk : Nat) (bit31 : Res (BitVec 64)) (length : Nat) : (todo : Nat) → RanCtx → List (BitVec 64) → List (BitVec 64) →
    Res (RanCtx × List (BitVec 64) × List (BitVec 64))
  | 0, x, data, data2 => .ok (x, data, data2)
  | todo + 1, x, data, data2 => do
    let (x, data, data2) ← trialsAv ri rj rk bit31 (128 - (todo + 1)) length x data data2
    bucketsAv ri rj rk bit31 length todo x data data2

/-- `gather`, rngav.c:82-107. -/
def gatherAv (ri rj rk : Nat) (bit31 : Res (BitVec 64)) (x : RanCtx) (data data2 : List (BitVec 64)) (length : Nat) :
    Res (RanCtx × List (BitVec 64) × List (BitVec 64)) :=
  bucketsAv ri rj rk bit31 length 128 x data data2

/-- `if (worst > t) worst = t`, rngav.c:115-126. -/
noncomputable def lowerAv (worst : ℝ) (t : BitVec 64) : ℝ := open Classical in if worst > (t.toNat : ℝ) then (t.toNat : ℝ) else worst

/-- The loop of `report`, rngav.c:114-127, from bucket `128 - todo` on. -/
noncomputable def worstAv (data data2 : List (BitVec 64)) : (todo : Nat) → ℝ → Res ℝ
  | 0, worst => .ok worst
  | todo + 1, worst => do
    let t ← rd data (128 - (todo + 1))
    let t2 ← rd data2 (128 - (todo + 1))
    worstAv data data2 todo (lowerAv (lowerAv (lowerAv (lowerAv worst t) (32 - t)) t2) (32 - t2))

/-- `report`, rngav.c:110-138: the value returned. -/
noncomputable def reportAv (data data2 : List (BitVec 64)) (length : Nat) : Res Bool := do
  let t ← rd data 0
  let worst ← worstAv data data2 127 t.toNat
  .ok (open Classical in decide (worst / length > 13))

/-- The loop of `driver`, rngav.c:150-155, from `i = 16 - todo` on: whether the last report was printed. -/
noncomputable def driverLoopAv (ri rj rk : Nat) (bit31 : Res (BitVec 64)) : (todo : Nat) → RanCtx → List (BitVec 64) → List (BitVec 64) → Res Bool
  | 0, _, _, _ => .ok true
  | todo + 1, x, data, data2 => do
    let i := 16 - (todo + 1)
    let (x, data, data2) ← gatherAv ri rj rk bit31 x data data2 (2 ^ i)
    let r ← reportAv data data2 (2 ^ (i + 1))
    if r then driverLoopAv ri rj rk bit31 todo x data data2 else .ok false

/-- `driver`, rngav.c:140-156, with `datainit`, rngav.c:72-79: whether a line was printed. -/
noncomputable def driverAv (ri rj rk : Nat) (bit31 : Res (BitVec 64)) : Res Bool := do
  let (x, data, data2) ← gatherAv ri rj rk bit31 (raninitAv ri rj rk 0) (List.replicate 128 0) (List.replicate 128 0) (2 ^ 6)
  driverLoopAv ri rj rk bit31 10 x data data2

end Dh
