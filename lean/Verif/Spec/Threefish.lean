/-
The tweakable block cipher Threefish-512 in the form in which it is defined (Skein paper, section
3.3): 72 rounds of MIX and a word permutation, a subkey added before every fourth round and at the
end.  The rotation constants and the key parity word are those of version 1.1/1.2 of the Skein
paper; version 1.3 has others.  Nothing here refers to the model.
-/
namespace Dh.Threefish

abbrev Word := BitVec 64
abbrev State := Fin 8 → Word

/-- Rotation constants for round `d mod 8`, word pair `j`. -/
def rot (d j : Nat) : Nat :=
  ([[38, 30, 50, 53], [48, 20, 43, 31], [34, 14, 15, 27], [26, 12, 58, 7],
    [33, 49, 8, 42], [39, 27, 41, 14], [29, 26, 11, 9], [33, 51, 39, 35]].getD (d % 8) []).getD j 0

/-- The word permutation. -/
def perm : Fin 8 → Fin 8
  | 0 => 2 | 1 => 1 | 2 => 4 | 3 => 7 | 4 => 6 | 5 => 5 | 6 => 0 | 7 => 3

/-- Extended key word `i mod 9`. -/
def keyWord (key : State) (i : Nat) : Word :=
  if h : i % 9 < 8 then key ⟨i % 9, h⟩
  else 0x5555555555555555 ^^^ key 0 ^^^ key 1 ^^^ key 2 ^^^ key 3 ^^^ key 4 ^^^ key 5 ^^^ key 6 ^^^ key 7

/-- Extended tweak word `i mod 3`. -/
def tweakWord (t0 t1 : Word) (i : Nat) : Word :=
  if i % 3 = 0 then t0 else if i % 3 = 1 then t1 else t0 ^^^ t1

/-- Subkey `s`. -/
def subkey (key : State) (t0 t1 : Word) (s : Nat) : State := fun i =>
  keyWord key (s + i.val) +
    (if i = 5 then tweakWord t0 t1 s else if i = 6 then tweakWord t0 t1 (s + 1) else if i = 7 then BitVec.ofNat 64 s else 0)

/-- MIX on the four pairs of words. -/
def mix (d : Nat) (x : State) : State := fun i =>
  if i.val % 2 = 0 then x i + x (i + 1)
  else (x i).rotateLeft (rot d (i.val / 2)) ^^^ (x (i - 1) + x i)

/-- Round `d`. -/
def round (d : Nat) (x : State) : State := fun i => mix d x (perm i)

/-- Subkey addition, before round `d` if `d` is a multiple of 4. -/
def addKey (key : State) (t0 t1 : Word) (d : Nat) (x : State) : State :=
  if d % 4 = 0 then fun i => x i + subkey key t0 t1 (d / 4) i else x

/-- The state after `d` rounds, before the subkey addition there. -/
def after (key : State) (t0 t1 : Word) (p : State) : Nat → State
  | 0 => p
  | d + 1 => round d (addKey key t0 t1 d (after key t0 t1 p d))

/-- Encryption. -/
def encrypt (key : State) (t0 t1 : Word) (p : State) : State := addKey key t0 t1 72 (after key t0 t1 p 72)

end Dh.Threefish
