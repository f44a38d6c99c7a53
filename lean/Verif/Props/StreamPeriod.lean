import Verif.Props.Aes
import Verif.Props.Threefish
import Verif.Props.CaUvag
import Mathlib.Dynamics.PeriodicPts.Lemmas
import Mathlib.Data.Fintype.BigOperators
import Mathlib.Data.Fintype.EquivFin
import Mathlib.SetTheory.Cardinal.Finite
import Mathlib.Data.Fintype.Vector
import Mathlib.Tactic.NormNum
/-
Property C112: the streams of the aes, threefish and ca generators are purely periodic; a byte of every 514th number
of ca has a period of at most 169.
-/
namespace Dh

/-- The orbit of a point under an injective map of a finite set is a cycle. -/
theorem orbit_cycle {α : Type*} [Fintype α] (f : α → α) (hf : Function.Injective f) (x : α) :
    ∃ P, 0 < P ∧ P ≤ Fintype.card α ∧ ∀ a b, f^[a] x = f^[b] x ↔ a % P = b % P := by
  classical
  have hmem : x ∈ Function.periodicPts f := hf.mem_periodicPts x
  refine ⟨Function.minimalPeriod f x, Function.minimalPeriod_pos_of_mem_periodicPts hmem, ?_, fun a b => ?_⟩
  · have hinj : Function.Injective (fun i : Fin (Function.minimalPeriod f x) => f^[i.1] x) := by
      intro i j h
      exact Fin.ext ((Function.iterate_eq_iterate_iff_of_lt_minimalPeriod i.2 j.2).1 h)
    simpa using Fintype.card_le_of_injective _ hinj
  · have hp := Function.minimalPeriod_pos_of_mem_periodicPts hmem
    rw [← Function.iterate_mod_minimalPeriod_eq (n := a), ← Function.iterate_mod_minimalPeriod_eq (n := b),
      Function.iterate_eq_iterate_iff_of_lt_minimalPeriod (Nat.mod_lt _ hp) (Nat.mod_lt _ hp)]

theorem orbit_bytes (f : List (BitVec 8) → List (BitVec 8)) (n : Nat) (hl : ∀ x, x.length = n → (f x).length = n)
    (hf : ∀ x y, x.length = n → y.length = n → f x = f y → x = y) (x : List (BitVec 8)) (hx : x.length = n) :
    ∃ P, 0 < P ∧ P ≤ 256 ^ n ∧ ∀ a b, f^[a] x = f^[b] x ↔ a % P = b % P := by
  let g : List.Vector (BitVec 8) n → List.Vector (BitVec 8) n := fun v => ⟨f v.1, hl v.1 v.2⟩
  have hit : ∀ k (v : List.Vector (BitVec 8) n), (g^[k] v).1 = f^[k] v.1 := by
    intro k
    induction k with
    | zero => intro v; rfl
    | succ k ih => intro v; rw [Function.iterate_succ_apply, Function.iterate_succ_apply, ih]
  let e : BitVec 8 ≃ Fin (2 ^ 8) := ⟨BitVec.toFin, BitVec.ofFin, fun _ => rfl, fun _ => rfl⟩
  let : Fintype (BitVec 8) := Fintype.ofEquiv _ e.symm
  have hcard : Fintype.card (BitVec 8) = 256 := by rw [Fintype.card_congr e, Fintype.card_fin]; rfl
  obtain ⟨P, h0, h1, h2⟩ := orbit_cycle g (fun v w h => Subtype.ext (hf _ _ v.2 w.2 (congrArg Subtype.val h)))
    (⟨x, hx⟩ : List.Vector (BitVec 8) n)
  refine ⟨P, h0, by rw [card_vector, hcard] at h1; exact h1, fun a b => ?_⟩
  rw [← h2]
  constructor
  · intro h
    exact Subtype.ext ((hit a ⟨x, hx⟩).trans (h.trans (hit b ⟨x, hx⟩).symm))
  · intro h
    exact (hit a _).symm.trans ((congrArg Subtype.val h).trans (hit b _))

/-- A sequence of words that comes in groups of `n`, the groups being determined by a cyclic sequence of blocks. -/
theorem word_period {n P : Nat} (hn : 0 < n) (w : Nat → UInt)
    (h : ∀ a b, (∀ j < n, w (n * a + j) = w (n * b + j)) ↔ a % P = b % P) :
    (∀ k, w (k + n * P) = w k) ∧ ∀ q, (∀ k, w (k + q) = w k) → P ∣ q := by
  constructor
  · intro k
    have := (h (k / n + P) (k / n)).2 (by simp) (k % n) (Nat.mod_lt _ hn)
    have h1 := Nat.div_add_mod k n
    rw [Nat.mul_add] at this
    rwa [show n * (k / n) + n * P + k % n = k + n * P by omega, h1] at this
  · intro q hq
    have hm : ∀ c k, w (k + c * q) = w k := by
      intro c
      induction c with
      | zero => intro k; simp
      | succ c ih => intro k; rw [Nat.succ_mul, ← Nat.add_assoc, hq, ih]
    have := (h q 0).1 (fun j _ => by rw [Nat.mul_zero, Nat.zero_add, Nat.add_comm]; exact hm n j)
    rw [Nat.zero_mod] at this
    exact Nat.dvd_of_mod_eq_zero this

theorem list_eq_of_getD {x y : List (BitVec 8)} (hl : x.length = y.length) (h : ∀ i < x.length, x.getD i 0 = y.getD i 0) : x = y := by
  apply List.ext_getElem hl
  intro i h1 h2
  have := h i h1
  simpa [List.getD_eq_getElem?_getD, List.getElem?_eq_getElem h1, List.getElem?_eq_getElem h2] using this

theorem aesEncrypt_inj (key : List (BitVec 8)) (hk : key.length = 16) (b b' : List (BitVec 8)) (hb : b.length = 16) (hb' : b'.length = 16)
    (h : Aes.encrypt 4 10 key b = Aes.encrypt 4 10 key b') : b = b' := by
  obtain ⟨rk, e, h1⟩ := C28_rijndael_is_aes 4 10 (Or.inl ⟨rfl, rfl⟩) key hk (List.replicate 44 0) (by simp)
  obtain ⟨rk', e', h2⟩ := C29_aes_injective key hk (List.replicate 44 0) (by simp)
  have hr : rk = rk' := by
    have := e.symm.trans e'
    injection this with this
    exact (Prod.mk.inj this).2
  apply h2 b b' hb hb'
  rw [← hr, h1 b hb, h1 b' hb', h]

/-- C112.  The stream of `aes` from any seed is purely periodic with a period of `4 P` numbers, `P` at most `2^128`; two
groups of four numbers are equal only if they are a multiple of `P` groups apart, and every period is a multiple of `P`. -/
theorem C112_aes (s : BitVec 64) : ∃ st w, (∀ old, aesSet old s = .ok st) ∧
    (∀ n, ∃ st', aesDraws n st = .ok ((List.range n).map w, st')) ∧
    ∃ P, 0 < P ∧ P ≤ 2 ^ 128 ∧ (∀ k, w (k + 4 * P) = w k) ∧
      (∀ a b, (∀ j < 4, w (4 * a + j) = w (4 * b + j)) ↔ a % P = b % P) ∧ ∀ q, (∀ k, w (k + q) = w k) → P ∣ q := by
  obtain ⟨st, h1, h2⟩ := C27_aes_ofb s
  refine ⟨st, _, h1, h2, ?_⟩
  have hk : (aesKey s).length = 16 := by simp [aesKey]
  obtain ⟨P, h0, hP, ho⟩ := orbit_bytes (Aes.encrypt 4 10 (aesKey s)) 16 (fun x _ => rfl) (aesEncrypt_inj _ hk)
    (Aes.encrypt 4 10 (aesKey s) (List.replicate 16 0)) rfl
  have key : ∀ a b, (∀ j < 4, leWord (ofbBlock (aesKey s) ((4 * a + j) / 4 + 1)) (4 * ((4 * a + j) % 4)) =
      leWord (ofbBlock (aesKey s) ((4 * b + j) / 4 + 1)) (4 * ((4 * b + j) % 4))) ↔ a % P = b % P := by
    intro a b
    rw [← ho, ← Function.iterate_succ_apply, ← Function.iterate_succ_apply]
    change _ ↔ ofbBlock (aesKey s) (a + 1) = ofbBlock (aesKey s) (b + 1)
    constructor
    · intro h
      apply list_eq_of_getD (by rw [ofb_length, ofb_length])
      intro i hi
      rw [ofb_length] at hi
      have h3 := h (i / 4) (by omega)
      rw [show (4 * a + i / 4) / 4 = a by omega, show (4 * a + i / 4) % 4 = i / 4 by omega,
        show (4 * b + i / 4) / 4 = b by omega, show (4 * b + i / 4) % 4 = i / 4 by omega] at h3
      have h4 := leWord_inj _ _ _ h3 (i % 4) (by omega)
      rwa [show 4 * (i / 4) + i % 4 = i by omega] at h4
    · intro h j hj
      rw [show (4 * a + j) / 4 = a by omega, show (4 * a + j) % 4 = j by omega,
        show (4 * b + j) / 4 = b by omega, show (4 * b + j) % 4 = j by omega, h]
  obtain ⟨k1, k2⟩ := word_period (n := 4) (by omega) (fun k => leWord (ofbBlock (aesKey s) (k / 4 + 1)) (4 * (k % 4))) key
  exact ⟨P, h0, le_trans hP (by norm_num), k1, key, k2⟩

/-- C112.  The stream of `threefish` from any seed is purely periodic with a period of `16 P` numbers, `P` at most
`2^512`, although the first block is encrypted with a different tweak. -/
theorem C112_threefish (s : U64) : ∃ st w, (∀ old, tfSet old s = .ok st) ∧
    (∀ n, ∃ st', tfDraws n st = .ok ((List.range n).map w, st')) ∧
    ∃ P, 0 < P ∧ P ≤ 2 ^ 512 ∧ (∀ k, w (k + 16 * P) = w k) ∧
      (∀ a b, (∀ j < 16, w (16 * a + j) = w (16 * b + j)) ↔ a % P = b % P) ∧ ∀ q, (∀ k, w (k + q) = w k) → P ∣ q := by
  obtain ⟨st, h1, h2⟩ := C64_threefish_ofb s
  refine ⟨st, _, h1, h2, ?_⟩
  let e : U64 ≃ Fin (2 ^ 64) := ⟨BitVec.toFin, BitVec.ofFin, fun _ => rfl, fun _ => rfl⟩
  let : Fintype U64 := Fintype.ofEquiv _ e.symm
  have hcard : Fintype.card U64 = 2 ^ 64 := by rw [Fintype.card_congr e, Fintype.card_fin]
  obtain ⟨P, h0, hP, ho⟩ := orbit_cycle (α := Fin 8 → U64) tfE
    (fun x y h => after_inj _ _ _ _ _ 72 (addKey_inj _ _ _ 72 _ _ h)) (tfBlocks s 0)
  have key : ∀ a b, (∀ j < 16, half (tfBlocks s ((16 * a + j) / 16)) ((16 * a + j) % 16) =
      half (tfBlocks s ((16 * b + j) / 16)) ((16 * b + j) % 16)) ↔ a % P = b % P := by
    intro a b
    rw [← ho]
    change _ ↔ tfBlocks s a = tfBlocks s b
    constructor
    · intro h
      apply half_inj
      intro j hj
      have h3 := h j hj
      rwa [show (16 * a + j) / 16 = a by omega, show (16 * a + j) % 16 = j by omega,
        show (16 * b + j) / 16 = b by omega, show (16 * b + j) % 16 = j by omega] at h3
    · intro h j hj
      rw [show (16 * a + j) / 16 = a by omega, show (16 * a + j) % 16 = j by omega,
        show (16 * b + j) / 16 = b by omega, show (16 * b + j) % 16 = j by omega, h]
  obtain ⟨k1, k2⟩ := word_period (n := 16) (by omega) (fun k => half (tfBlocks s (k / 16)) (k % 16)) key
  refine ⟨P, h0, le_trans hP ?_, k1, key, k2⟩
  rw [Fintype.card_fun, hcard, Fintype.card_fin, ← pow_mul]

theorem caSweep_take (x : List (BitVec 8)) (m : Nat) : (caSweep x).take m = caSweep (x.take m) := by
  unfold caSweep
  rw [List.take_zipWith]
  cases m with
  | zero => simp
  | succ m =>
    rw [List.take_succ_cons]
    apply List.ext_getElem
    · simp; omega
    · intro i h1 h2
      rw [List.getElem_zipWith, List.getElem_zipWith]
      congr 1
      cases i with
      | zero => rfl
      | succ i => simp

theorem caIter_take (x : List (BitVec 8)) (m n : Nat) : (caSweep^[n] x).take m = caSweep^[n] (x.take m) := by
  induction n with
  | zero => rfl
  | succ n ih => rw [Function.iterate_succ_apply', Function.iterate_succ_apply', caSweep_take, ih]

theorem caOrbit (n : Nat) (x : List (BitVec 8)) (hx : x.length = n) :
    ∃ P, 0 < P ∧ P ≤ 256 ^ n ∧ ∀ a b, caSweep^[a] x = caSweep^[b] x ↔ a % P = b % P :=
  orbit_bytes caSweep n (fun x h => by rw [caSweep_length, h]) (fun x y h1 h2 h => caSweep_inj x y (by omega) h) x hx

theorem getD_take_lt (x : List (BitVec 8)) (m i : Nat) (h : i < m) : (x.take m).getD i 0 = x.getD i 0 := by
  rw [List.getD_eq_getElem?_getD, List.getD_eq_getElem?_getD, List.getElem?_take_of_lt h]

theorem leWord_take (x : List (BitVec 8)) (m p : Nat) (h : p + 3 < m) : leWord (x.take m) p = leWord x p := by
  unfold leWord
  rw [getD_take_lt _ _ _ (by omega), getD_take_lt _ _ _ (by omega), getD_take_lt _ _ _ (by omega), getD_take_lt _ _ _ h]

/-- C112.  The stream of `ca` is purely periodic too, with a period of `514 P` numbers.  But the numbers 513, 1027, ...
of the stream have a period of at most `256^4` among themselves, and in general the numbers at distance 514 that come
`i` places before these one of at most `256^(4 i + 4)`. -/
theorem C112_ca (s g : BitVec 64) : ∃ st w, caSet s g = .ok (st, caBump g) ∧
    (∀ n, ∃ st', caDraws n st = .ok ((List.range n).map w, st')) ∧
    (∃ P, 0 < P ∧ P ≤ 256 ^ 2056 ∧ (∀ k, w (k + 514 * P) = w k) ∧
      (∀ a b, (∀ j < 514, w (514 * a + j) = w (514 * b + j)) ↔ a % P = b % P) ∧ ∀ q, (∀ k, w (k + q) = w k) → P ∣ q) ∧
    ∀ i < 514, ∃ Q, 0 < Q ∧ Q ≤ 256 ^ (4 * i + 4) ∧ ∀ a, w (514 * (a + Q) + (513 - i)) = w (514 * a + (513 - i)) := by
  obtain ⟨st, h1, -, h2, h3⟩ := C25_ca s g
  have hl : st.cells.length = 2056 := by rw [h2, iter_length, caInit_length]
  refine ⟨st, caStream st.cells, h1, fun n => ?_, ?_, ?_⟩
  · obtain ⟨st', h, -⟩ := h3 n
    exact ⟨st', h⟩
  · obtain ⟨P, h0, hP, ho⟩ := caOrbit 2056 (caSweep st.cells) (by rw [caSweep_length, hl])
    have key : ∀ a b, (∀ j < 514, caStream st.cells (514 * a + j) = caStream st.cells (514 * b + j)) ↔ a % P = b % P := by
      intro a b
      rw [← ho, ← Function.iterate_succ_apply, ← Function.iterate_succ_apply]
      have hd : ∀ c j, j < 514 → caStream st.cells (514 * c + j) = caStream (caSweep^[c] st.cells) j := by
        intro c j hj
        unfold caStream
        rw [← Function.iterate_add_apply]
        rw [show (514 * c + j) / 514 + 1 = j / 514 + 1 + c by omega, show (514 * c + j) % 514 = j % 514 by omega]
      constructor
      · intro h
        rw [Function.iterate_succ_apply', Function.iterate_succ_apply']
        refine congrArg caSweep ?_
        apply caStream_inj _ _ (by rw [iter_length, hl]) (by rw [iter_length, hl])
        intro j hj
        rw [← hd a j hj, ← hd b j hj, h j hj]
      · intro h j hj
        rw [Function.iterate_succ_apply', Function.iterate_succ_apply'] at h
        rw [hd a j hj, hd b j hj, caSweep_inj _ _ (by rw [iter_length, iter_length]) h]
    obtain ⟨k1, k2⟩ := word_period (n := 514) (by omega) (caStream st.cells) key
    exact ⟨P, h0, hP, k1, key, k2⟩
  · intro i hi
    obtain ⟨Q, h0, hQ, ho⟩ := caOrbit (4 * i + 4) (st.cells.take (4 * i + 4)) (by rw [List.length_take, hl]; omega)
    refine ⟨Q, h0, hQ, fun a => ?_⟩
    unfold caStream
    rw [show (514 * (a + Q) + (513 - i)) / 514 + 1 = a + 1 + Q by omega, show (514 * a + (513 - i)) / 514 + 1 = a + 1 by omega,
      show (514 * (a + Q) + (513 - i)) % 514 = 513 - i by omega, show (514 * a + (513 - i)) % 514 = 513 - i by omega,
      show 2052 - 4 * (513 - i) = 4 * i by omega]
    rw [← leWord_take _ (4 * i + 4) (4 * i) (by omega), ← leWord_take (caSweep^[a + 1] st.cells) (4 * i + 4) (4 * i) (by omega),
      caIter_take, caIter_take, (ho (a + 1 + Q) (a + 1)).2 (by simp)]

/-- The first cell goes its own way. -/
theorem caIter_first (x : List (BitVec 8)) (hx : 0 < x.length) (n : Nat) :
    (caSweep^[n] x).getD 0 0 = (caF 0)^[n] (x.getD 0 0) := by
  induction n with
  | zero => rfl
  | succ n ih =>
    rw [Function.iterate_succ_apply', Function.iterate_succ_apply', ← ih]
    have h0 : 0 < (caSweep^[n] x).length := by rw [iter_length]; exact hx
    have h1 := caSweep_get (caSweep^[n] x) 0 h0
    rw [if_pos rfl] at h1
    rw [List.getD_eq_getElem?_getD, List.getElem?_eq_getElem (by rw [caSweep_length]; exact h0), Option.getD_some, h1,
      List.getD_eq_getElem?_getD, List.getElem?_eq_getElem h0, Option.getD_some]

theorem leWord_low (x : List (BitVec 8)) (p : Nat) : (leWord x p).toNat % 256 = (x.getD p 0).toNat := by
  unfold leWord
  have := (x.getD p 0).isLt
  rw [BitVec.toNat_ofNat]
  omega

set_option maxRecDepth 100000 in
/-- The cycles of the rule. -/
theorem caF_cycles : ∀ b : Fin 256, ∃ p ∈ [1, 2, 3, 4, 27, 169], (caF 0)^[p] (BitVec.ofFin b) = BitVec.ofFin b := by
  decide +kernel

/-- C112.  The low byte of the numbers 513, 1027, ... of `ca` repeats with a period of 1, 2, 3, 4, 27 or 169 of them,
whatever the seed.  It is constant exactly if the byte `b` the first cell is seeded with has `rule[b] = b`. -/
theorem C112_ca_byte (s g : BitVec 64) : ∃ st w, caSet s g = .ok (st, caBump g) ∧
    (∀ n, ∃ st', caDraws n st = .ok ((List.range n).map w, st')) ∧
    (∃ p ∈ [1, 2, 3, 4, 27, 169], ∀ a, (w (514 * (a + p) + 513)).toNat % 256 = (w (514 * a + 513)).toNat % 256) ∧
    ((∀ a, (w (514 * a + 513)).toNat % 256 = (w 513).toNat % 256) ↔
      caRule.getD ((caBump g).toNat % 256) 0 = (caBump g).toNat % 256) := by
  obtain ⟨st, h1, -, h2, h3⟩ := C25_ca s g
  have hi := caInit_length g (caBump g)
  have hl : st.cells.length = 2056 := by rw [h2, iter_length, hi]
  have hb : ((caInit g (caBump g)).getD 0 0).toNat = (caBump g).toNat % 256 := by
    have h4 : (caInit g (caBump g)).getD 0 0 = BitVec.truncate 8 (caBump g >>> (0 % 32)) := by
      unfold caInit
      rw [List.getD_eq_getElem?_getD, List.getElem?_append_left (by simp [caWidth]), List.getElem?_map,
        List.getElem?_range (by simp [caWidth])]
      rfl
    rw [h4]
    simp
  generalize hb0 : (caInit g (caBump g)).getD 0 0 = b at hb
  obtain ⟨N, hN⟩ : ∃ N, N = 2057 := ⟨_, rfl⟩
  have low : ∀ a, (caStream st.cells (514 * a + 513)).toNat % 256 = ((caF 0)^[a] ((caF 0)^[N] b)).toNat := by
    intro a
    unfold caStream
    rw [leWord_low, show (514 * a + 513) / 514 + 1 = a + 1 by omega, show 2052 - 4 * ((514 * a + 513) % 514) = 0 by omega,
      caIter_first _ (by omega), h2, caIter_first _ (by omega), hb0, ← Function.iterate_add_apply, ← Function.iterate_add_apply,
      show a + 1 + 2056 = a + N by omega]
  refine ⟨st, caStream st.cells, h1, fun n => ?_, ?_, ?_⟩
  · obtain ⟨st', h, -⟩ := h3 n
    exact ⟨st', h⟩
  · obtain ⟨p, hp, h⟩ := caF_cycles ((caF 0)^[N] b).toFin
    refine ⟨p, hp, fun a => ?_⟩
    rw [low, low, Function.iterate_add_apply]
    exact congrArg (fun y => ((caF 0)^[a] y).toNat) h
  · have hfix : caRule.getD ((caBump g).toNat % 256) 0 = (caBump g).toNat % 256 ↔ caF 0 b = b := by
      have hr := (caRule_inv b.toNat (by have := b.isLt; omega)).2
      rw [← hb, ← BitVec.toNat_inj, caF, BitVec.toNat_ofNat, show (0 : BitVec 8).toNat = 0 from rfl, Nat.zero_add,
        Nat.mod_eq_of_lt (by simpa using hr)]
    have h513 : (caStream st.cells 513).toNat % 256 = ((caF 0)^[N] b).toNat := low 0
    rw [hfix]
    constructor
    · intro h
      have h4 := h 1
      rw [low, h513, Function.iterate_one, BitVec.toNat_inj, ← Function.iterate_succ_apply' (caF 0), Function.iterate_succ_apply] at h4
      exact (Function.Injective.iterate (fun x y => caF_inj 0 x y) N) h4
    · intro h a
      have hit : ∀ n, (caF 0)^[n] b = b := fun n => Function.iterate_fixed h n
      rw [low, h513, hit, hit]

set_option maxRecDepth 100000 in
/-- 37 of the 256 bytes are left alone by the rule: one seed in seven. -/
example : ((List.range 256).filter fun b => caRule.getD b 0 = b).length = 37 := by decide +kernel

/-- With the global seed 2 the first cell is 3 from the beginning, and the low byte of every 514th number is constant. -/
example : caRule.getD ((caBump 2).toNat % 256) 0 = (caBump 2).toNat % 256 := by decide +kernel

/-- The periods of three bytes. -/
example : (caF 0)^[169] 0 = 0 ∧ (caF 0)^[13] 0 ≠ 0 ∧ (caF 0)^[27] 9 = 9 ∧ (caF 0)^[9] 9 ≠ 9 ∧ caF 0 3 = 3 := by decide +kernel

end Dh
