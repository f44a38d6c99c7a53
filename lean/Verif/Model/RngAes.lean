import Verif.Model.Rijndael
import Verif.Model.CaUvag
/-
The generator AES_OFB, libdieharder/rng_aes.c.
-/
namespace Dh

/-- `AES_state_t`, rng_aes.c:32-36. -/
structure AesS where
  rk : List UInt
  block : List (BitVec 8)
  pos : Nat
  deriving DecidableEq, Repr

/-- `aes_get`, rng_aes.c:42-56 (little-endian machine; `BLOCKS_SIZE` is 16, `NR` 10). -/
def aesGet (st : AesS) : Res (UInt × AesS) := do
  let st ← if st.pos + 4 > 16 then do
      let b ← rijndaelEncrypt st.rk 10 st.block
      .ok ⟨st.rk, b, 0⟩
    else .ok st
  let ret ← rdWord st.block st.pos
  .ok (ret, ⟨st.rk, st.block, st.pos + 4⟩)

/-- The key bytes, rng_aes.c:74-76; `s` is an `unsigned long`. -/
def aesKey (s : BitVec 64) : List (BitVec 8) :=
  (List.range 16).map fun i => (112 + BitVec.ofNat 64 i + (s >>> (5 * i % 26))).setWidth 8

/-- `aes_set`, rng_aes.c:64-81.  The previous contents of the state are overwritten by `memset`. -/
def aesSet (_old : AesS) (s : BitVec 64) : Res AesS := do
  let (_, rk) ← keySetupEnc (List.replicate 44 0) (aesKey s) 128
  let b ← rijndaelEncrypt rk 10 (List.replicate 16 0)
  .ok ⟨rk, b, 0⟩

/-- `n` draws. -/
def aesDraws : Nat → AesS → Res (List UInt × AesS)
  | 0, st => .ok ([], st)
  | n + 1, st => do
    let (v, st) ← aesGet st
    let (vs, st) ← aesDraws n st
    .ok (v :: vs, st)

end Dh
