import Mathlib.Logic.Function.Iterate
/-
The block cipher AES as FIPS 197 defines it: bytes are elements of GF(2^8), the state is a 4 by 4
array of bytes.  Nothing here refers to the model.
-/
namespace Dh.Aes

abbrev Byte := BitVec 8

/-- Multiplication by x modulo x^8 + x^4 + x^3 + x + 1 (FIPS 197, 4.2.1). -/
def xtime (b : Byte) : Byte := (b <<< 1) ^^^ (if b.msb then 0x1b else 0)

/-- Multiplication in GF(2^8): the sum of the `x^i b` over the bits `i` of `a`. -/
def gmul (a b : Byte) : Byte :=
  (List.range 8).foldr (fun i v => (if a.getLsbD i then xtime^[i] b else 0) ^^^ v) 0

/-- The multiplicative inverse, as the power 254 = 2+4+8+16+32+64+128; 0 is mapped to 0. -/
def ginv (a : Byte) : Byte :=
  let a2 := gmul a a
  let a4 := gmul a2 a2
  let a8 := gmul a4 a4
  let a16 := gmul a8 a8
  let a32 := gmul a16 a16
  let a64 := gmul a32 a32
  let a128 := gmul a64 a64
  gmul a2 (gmul a4 (gmul a8 (gmul a16 (gmul a32 (gmul a64 a128)))))

/-- The S-box: inverse followed by the affine map of FIPS 197, 5.1.1. -/
def sbox (a : Byte) : Byte :=
  let b := ginv a
  b ^^^ b.rotateLeft 1 ^^^ b.rotateLeft 2 ^^^ b.rotateLeft 3 ^^^ b.rotateLeft 4 ^^^ 0x63

/-- The state: row, column. -/
abbrev St := Fin 4 → Fin 4 → Byte
/-- A word: four bytes, a column of the state. -/
abbrev Wd := Fin 4 → Byte

/-- Input bytes to state, `s[r,c] = in[r + 4c]` (FIPS 197, 3.4). -/
def load (b : List Byte) : St := fun r c => b.getD (r.val + 4 * c.val) 0
/-- State to output bytes, `out[r + 4c] = s[r,c]`. -/
def store (s : St) : List Byte := (List.finRange 4).flatMap fun c => (List.finRange 4).map fun r => s r c

def subBytes (s : St) : St := fun r c => sbox (s r c)
/-- Row `r` is rotated left by `r`. -/
def shiftRows (s : St) : St := fun r c => s r (c + r)
/-- Each column is multiplied by the circulant matrix with first row 2 3 1 1. -/
def mixColumns (s : St) : St := fun r c =>
  gmul 2 (s r c) ^^^ gmul 3 (s (r + 1) c) ^^^ s (r + 2) c ^^^ s (r + 3) c
def addRoundKey (s k : St) : St := fun r c => s r c ^^^ k r c

def zeroWord : Wd := fun _ => 0
def subWord (w : Wd) : Wd := fun r => sbox (w r)
def rotWord (w : Wd) : Wd := fun r => w (r + 1)
/-- The round constant: `x^(i-1)` in the first byte. -/
def rcon (i : Nat) : Wd := fun r => if r = 0 then xtime^[i - 1] 1 else 0
def addWord (v w : Wd) : Wd := fun r => v r ^^^ w r

/-- The first `n` words of the key schedule for a key of `Nk` words (FIPS 197, 5.2). -/
def schedule (key : List Byte) (Nk : Nat) : Nat → List Wd
  | 0 => []
  | n + 1 =>
    let ws := schedule key Nk n
    ws ++ [if n < Nk then fun r => key.getD (4 * n + r.val) 0 else
      let temp := ws.getD (n - 1) zeroWord
      let temp := if n % Nk = 0 then addWord (subWord (rotWord temp)) (rcon (n / Nk))
        else if Nk > 6 ∧ n % Nk = 4 then subWord temp else temp
      addWord (ws.getD (n - Nk) zeroWord) temp]

/-- Round key `j`: words `4j .. 4j+3` of the schedule as columns. -/
def roundKey (key : List Byte) (Nk Nr : Nat) (j : Nat) : St :=
  fun r c => (schedule key Nk (4 * (Nr + 1))).getD (4 * j + c.val) zeroWord r

/-- Rounds `1 .. n`. -/
def rounds (k : Nat → St) : Nat → St → St
  | 0, s => s
  | n + 1, s => addRoundKey (mixColumns (shiftRows (subBytes (rounds k n s)))) (k (n + 1))

/-- The cipher on states (FIPS 197, 5.1). -/
def cipher (k : Nat → St) (Nr : Nat) (s : St) : St :=
  addRoundKey (shiftRows (subBytes (rounds k (Nr - 1) (addRoundKey s (k 0))))) (k Nr)

/-- AES with a key of `Nk` words (4, 6, 8) and `Nr` rounds (10, 12, 14), on 16 bytes. -/
def encrypt (Nk Nr : Nat) (key pt : List Byte) : List Byte :=
  store (cipher (roundKey key Nk Nr) Nr (load pt))

end Dh.Aes
