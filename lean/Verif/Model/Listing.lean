import Verif.Basic
/-
The table of the generators (dieharder_rng_types.c) and its listing (list_rngs.c, version.c).
-/
namespace Dh

/-- `ADD(t)`, dieharder_rng_types.h:67 (`abort` for `i == MAXRNGS`), for a sequence of generators.  The table holds the names. -/
def addRngs : List (List Char) → List (Option (List Char)) → Nat → Res (List (Option (List Char)) × Nat)
  | [], t, i => .ok (t, i)
  | nm :: r, t, i => if i = 1000 then .exit else do
    let t ← wr t i (some nm)
    addRngs r t (i + 1)

/-- The copy of the GSL generators, dieharder_rng_types.c:60-64 (no check of the bound). -/
def copyRngs : List (List Char) → List (Option (List Char)) → Nat → Res (List (Option (List Char)) × Nat)
  | [], t, i => .ok (t, i)
  | nm :: r, t, i => do
    let t ← wr t i (some nm)
    copyRngs r t (i + 1)

/-- The generators of dieharder, dieharder_rng_types.c:81-102; the names: rng_stdin_input_raw.c:43, rng_file_input_raw.c:242,
rng_file_input.c:352, rng_ca.c:161, rng_uvag.c:199, rng_aes.c:84, rng_threefish.c:118, rng_XOR.c:85, rng_kiss.c:103,
rng_superkiss.c:120. -/
def dhNames : List (List Char) :=
  ["stdin_input_raw", "file_input_raw", "file_input", "ca", "uvag", "AES_OFB", "Threefish_OFB", "XOR (supergenerator)", "kiss",
    "superkiss"].map String.toList

/-- The generators of R, dieharder_rng_types.c:112-125; the names: rngs_gnu_r.c:404, 427, 450, 473, 503, 533. -/
def rNames : List (List Char) :=
  ["R_wichmann_hill", "R_marsaglia_multic.", "R_super_duper", "R_mersenne_twister", "R_knuth_taocp", "R_knuth_taocp2"].map String.toList

/-- The devices that can be opened, dieharder_rng_types.c:137-153; the names: rng_dev_random.c:58, rng_dev_urandom.c:58,
rng_dev_arandom.c:58. -/
def hwNames (r u a : Bool) : List (List Char) :=
  (if r then ["/dev/random".toList] else []) ++ ((if u then ["/dev/urandom".toList] else []) ++ if a then ["/dev/arandom".toList] else [])

/-- `dieharder_rng_types`, dieharder_rng_types.c:42-165: the table and `dh_num_rngs`.  `gsl` are the names of the generators of the
GSL in their order; `r`, `u`, `a` tell which of the devices /dev/random, /dev/urandom, /dev/arandom can be opened. -/
def rngTypes (gsl : List (List Char)) (r u a : Bool) : Res (List (Option (List Char)) × Nat) := do
  let (t, i) ← copyRngs gsl (List.replicate 1000 none) 0
  let (t, _) ← addRngs dhNames t 200
  let (t, _) ← addRngs rNames t 400
  let (t, _) ← addRngs (hwNames r u a) t 500
  .ok (t, i + dhNames.length + rNames.length + (hwNames r u a).length)

/-- `add_ui_rngs`, add_ui_rngs.c:17-48: nothing is added to the table, but `dh_num_user_rngs` is 1 and `dh_num_rngs` grows. -/
def addUiRngs (t : List (Option (List Char))) (numRngs : Nat) : List (Option (List Char)) × Nat × Nat := (t, numRngs + 1, 1)

/-- `%-20s`. -/
def fmtName (nm : List Char) : List Char := nm ++ List.replicate (20 - nm.length) ' '

/-- `%3d` and `%3.3d` for a number that is not negative. -/
def fmtNum (c : Char) (i : Nat) : List Char := List.replicate (3 - (Nat.toDigits 10 i).length) c ++ Nat.toDigits 10 i

/-- The loop of one block, list_rngs.c:48-54, 65-71, 78-84, 91-97, 106-112: `base` is the value of `i` at the start.  The result is the
text and the last `j`. -/
def listLoop (t : List (Option (List Char))) (pad : Char) (base : Nat) : (fuel i j : Nat) → Res (List Char × Nat)
  | 0, _, _ => .loop
  | fuel + 1, i, j => do
    let e ← rd t i
    match e with
    | none => .ok ([], j)
    | some nm => do
      let (rest, n) ← listLoop t pad base fuel (i + 1) (j + 1)
      .ok ((if j % 3 = 0 then "|   ".toList else []) ++ (fmtNum pad i ++ ' ' :: (fmtName nm ++ '|' ::
        ((if (j + 1) % 3 = 0 ∧ i > base then ['\n'] else []) ++ rest))), n)

/-- list_rngs.c:45, 62, 75, 88, 101, 116. -/
def listRule : List Char := '#' :: (List.replicate 77 '=' ++ ['#', '\n'])

/-- One block with the padding of its last row and the line below it, list_rngs.c:46-62 and so on. -/
def listBlock (t : List (Option (List Char))) (pad : Char) (base : Nat) : Res (List Char) := do
  let (s, j) ← listLoop t pad base 1001 base 0
  let j := j % 3
  .ok (s ++ ((if j = 1 then List.replicate 24 ' ' ++ '|' :: (List.replicate 24 ' ' ++ ['|', '\n']) else []) ++
    ((if j = 2 then List.replicate 24 ' ' ++ ['|', '\n'] else []) ++ listRule)))

/-- `dh_header`, version.c:26-51. -/
def dhHeader (version : List Char) : List Char :=
  let half : Int := Int.tdiv (80 - 48 - version.length - 2) 2
  let half' : Int := 80 - 52 - version.length - half
  listRule ++ '#' :: (List.replicate half.toNat ' ' ++ ("dieharder version ".toList ++ (version ++
    (" Copyright 2003 Robert G. Brown".toList ++ (List.replicate half'.toNat ' ' ++ '#' :: '\n' :: listRule)))))

/-- list_rngs.c:43-45. -/
def listHead : List Char :=
  let c := " Id".toList ++ ' ' :: fmtName "Test Name".toList
  "#   ".toList ++ (c ++ '|' :: (c ++ '|' :: (c ++ '#' :: '\n' :: listRule)))

/-- `list_rngs` without the options -v, list_rngs.c:18-120: what is printed. -/
def listRngs (version : List Char) (gsl : List (List Char)) (r u a : Bool) : Res (List Char) := do
  let (t, n) ← rngTypes gsl r u a
  let (t, _, user) := addUiRngs t n
  let b0 ← listBlock t '0' 0
  let b2 ← listBlock t '0' 200
  let b4 ← listBlock t ' ' 400
  let b5 ← listBlock t ' ' 500
  let b6 ← (if user ≠ 0 then listBlock t ' ' 600 else .ok [] : Res (List Char))
  .ok (dhHeader version ++ (listHead ++ (b0 ++ (b2 ++ (b4 ++ (b5 ++ b6))))))

end Dh
