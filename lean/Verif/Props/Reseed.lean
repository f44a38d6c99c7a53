import Verif.Model.Reseed
import Verif.Props.RandBits
import Mathlib.Data.List.Forall2
import Mathlib.Algebra.BigOperators.Group.List.Basic
import Mathlib.Tactic.Ring
import Mathlib.Data.Nat.Prime.Basic
/-
Property C115: reseeding before each test (-s 1) and the bit buffer.
-/
namespace Dh
open Spec

/-- A request is proper: at most 32 bits, and the mask fits. -/
def Proper (reqs : List (Nat × UInt)) : Prop := ∀ p ∈ reqs, p.1 ≤ 32 ∧ ((p.1 = 32 ∧ p.2 ≠ 0) ∨ (p.2 = 0 ∧ p.1 < 32) ∨
  ∀ i < 32, p.2.getLsbD i = decide (i < p.1))

/-- The number of bits that the requests take from the queue: requests as wide as the generator pass it. -/
def queueBits (r : Nat) (ns : List Nat) : Nat := (ns.filter fun n => n ≠ r).sum

theorem popN_pending (r : Nat) (hr : 0 < r) (src : Src) : ∀ (n : Nat) (q : Queue), q.pending.length < r →
    (Queue.popN r src n q).2.pending.length < r ∧ ((Queue.popN r src n q).2.pending.length + n) % r = q.pending.length % r
  | 0, q, h => ⟨h, rfl⟩
  | n + 1, ⟨[], p⟩, h => by
    have hl : (msbBits r (src p)).tail.length = r - 1 := by simp [msbBits]
    obtain ⟨h1, h2⟩ := popN_pending r hr src n ⟨(msbBits r (src p)).tail, p + 1⟩ (by rw [hl]; omega)
    refine ⟨h1, ?_⟩
    simp only [Queue.popN, Queue.pop]
    rw [← Nat.add_assoc, Nat.add_mod, h2, hl, ← Nat.add_mod, Nat.sub_add_cancel hr]
    simp
  | n + 1, ⟨b :: bs, p⟩, h => by
    rw [List.length_cons] at h
    obtain ⟨h1, h2⟩ := popN_pending r hr src n ⟨bs, p⟩ (by simp only; omega)
    refine ⟨h1, ?_⟩
    simp only [Queue.popN, Queue.pop]
    rw [← Nat.add_assoc, Nat.add_mod, h2, ← Nat.add_mod, List.length_cons]

theorem serve_pending (r : Nat) (hr : 0 < r) (src : Src) : ∀ (ns : List Nat) (q : Queue), q.pending.length < r →
    (Queue.serve r src ns q).2.pending.length < r ∧ ((Queue.serve r src ns q).2.pending.length + queueBits r ns) % r = q.pending.length % r
  | [], q, h => ⟨h, rfl⟩
  | n :: ns, q, h => by
    by_cases hn : n = r
    · obtain ⟨h1, h2⟩ := serve_pending r hr src ns ⟨q.pending, q.pos + 1⟩ h
      have e : queueBits r (n :: ns) = queueBits r ns := by
        simp only [queueBits, List.filter_cons]
        rw [if_neg (by simpa using hn)]
      rw [e]
      simp only [Queue.serve, if_pos hn]
      exact ⟨h1, h2⟩
    · obtain ⟨g1, g2⟩ := popN_pending r hr src n q h
      obtain ⟨h1, h2⟩ := serve_pending r hr src ns (Queue.popN r src n q).2 g1
      simp only [Queue.serve, if_neg hn]
      refine ⟨h1, ?_⟩
      have e : queueBits r (n :: ns) = queueBits r ns + n := by
        simp only [queueBits, List.filter_cons]
        rw [if_pos (by simpa using hn), List.sum_cons, Nat.add_comm]
      rw [e, ← Nat.add_assoc, Nat.add_mod, h2, ← Nat.add_mod, g2]

/-- The second of two runs, exactly: it is served from what the first left in the queue, then from the start of the stream. -/
theorem reseed_run (r : Nat) (hr : 0 < r) (hr32 : r ≤ 32) (src : Src) (hw : Width r src) (s : GBState) (hs : GBInv r s) (reqs : List (Nat × UInt))
    (hp : Proper reqs) : ∃ s', getRandBitsUints r src reqs { s with pos := 0 } =
      .ok ((Queue.serve r src (reqs.map Prod.fst) ⟨msbBits s.left s.buf, 0⟩).1, s') ∧ GBInv r s' ∧
      (Queue.serve r src (reqs.map Prod.fst) ⟨msbBits s.left s.buf, 0⟩).2 = ⟨msbBits s'.left s'.buf, s'.pos⟩ :=
  getRandBitsUints_spec r src hr hr32 hw reqs { s with pos := 0 } ⟨hs.hleft, hs.hbuf⟩ hp

/-- Runs that leave the queue empty. -/
theorem reseed_clean (r : Nat) (hr : 0 < r) (hr32 : r ≤ 32) (src : Src) (hw : Width r src) : ∀ (runs : List (List (Nat × UInt))) (s : GBState),
    GBInv r s → s.left = 0 → (∀ reqs ∈ runs, Proper reqs) → (∀ reqs ∈ runs, r ∣ queueBits r (reqs.map Prod.fst)) →
    reseedRuns r src runs s = .ok (runs.map fun reqs => (Queue.serve r src (reqs.map Prod.fst) ⟨[], 0⟩).1)
  | [], _, _, _, _, _ => rfl
  | reqs :: rest, s, hs, hl, hp, hd => by
    obtain ⟨s', h1, h2, h3⟩ := reseed_run r hr hr32 src hw s hs reqs (hp reqs (by simp))
    have e0 : msbBits s.left s.buf = [] := by rw [hl]; rfl
    rw [e0] at h1 h3
    obtain ⟨g1, g2⟩ := serve_pending r hr src (reqs.map Prod.fst) ⟨[], 0⟩ hr
    have hl' : s'.left = 0 := by
      rw [h3] at g1 g2
      have e1 : (msbBits s'.left s'.buf).length = s'.left := by simp [msbBits]
      simp only [e1, List.length_nil, Nat.zero_mod] at g1 g2
      have := (Nat.dvd_add_left (hd reqs (by simp))).1 (Nat.dvd_of_mod_eq_zero g2)
      exact Nat.eq_zero_of_dvd_of_lt this g1
    rw [reseedRuns, h1, Res.bind_ok]
    simp only
    rw [reseed_clean r hr hr32 src hw rest s' h2 hl' (fun q hq => hp q (List.mem_cons_of_mem _ hq)) fun q hq => hd q (List.mem_cons_of_mem _ hq)]
    rfl

theorem gbInv_init (r : Nat) (hr : 0 < r) : GBInv r GBState.init := ⟨hr, fun i _ => by simp [GBState.init]⟩

/-- **C115.** Reseeding before each run makes every run see what it would see alone in a fresh program, provided that every run takes a
multiple of `r` bits from the queue, for an `r`-bit generator. -/
theorem C115_same (r : Nat) (hr : 0 < r) (hr32 : r ≤ 32) (src : Src) (hw : Width r src) (runs : List (List (Nat × UInt)))
    (hp : ∀ reqs ∈ runs, Proper reqs) (hd : ∀ reqs ∈ runs, r ∣ queueBits r (reqs.map Prod.fst)) :
    ∃ out, reseedRuns r src runs GBState.init = .ok out ∧
      List.Forall₂ (fun reqs xs => reseedRuns r src [reqs] GBState.init = .ok [xs]) runs out := by
  refine ⟨_, reseed_clean r hr hr32 src hw runs GBState.init (gbInv_init r hr) rfl hp hd, ?_⟩
  rw [List.forall₂_map_right_iff, List.forall₂_same]
  intro reqs hq
  exact reseed_clean r hr hr32 src hw [reqs] GBState.init (gbInv_init r hr) rfl
    (fun q h => by rw [List.mem_singleton.1 h]; exact hp reqs hq) (fun q h => by rw [List.mem_singleton.1 h]; exact hd reqs hq)

/-- The first value has its first bit set; all else is zero. -/
def firstBitSrc (r : Nat) : Src := fun k => if k = 0 then BitVec.twoPow 32 (r - 1) else 0

theorem firstBit_width (r : Nat) (hr : 0 < r) : Width r (firstBitSrc r) := by
  intro k i hi
  rw [firstBitSrc]
  split
  · rw [BitVec.getLsbD_twoPow]
    simp
    omega
  · simp

theorem firstBit_tail (r p : Nat) : ∀ b ∈ (msbBits r (firstBitSrc r p)).tail, b = false := by
  intro b hb
  obtain ⟨i, hi, rfl⟩ := List.mem_iff_getElem.1 hb
  have hi' : i + 1 < r := by
    simp only [msbBits, List.length_tail, List.length_map, List.length_range] at hi
    omega
  simp only [msbBits, List.getElem_tail, List.getElem_map, List.getElem_range, firstBitSrc]
  split
  · rw [BitVec.getLsbD_twoPow]
    simp
    omega
  · simp

/-- What is pending is zero. -/
theorem popN_zero (r : Nat) : ∀ (n : Nat) (q : Queue), (∀ b ∈ q.pending, b = false) →
    ∀ b ∈ (Queue.popN r (firstBitSrc r) n q).2.pending, b = false
  | 0, q, h => h
  | n + 1, ⟨[], p⟩, h => by
    simp only [Queue.popN, Queue.pop]
    exact popN_zero r n ⟨_, p + 1⟩ (firstBit_tail r p)
  | n + 1, ⟨b :: bs, p⟩, h => by
    simp only [Queue.popN, Queue.pop]
    exact popN_zero r n ⟨bs, p⟩ fun c hc => h c (List.mem_cons_of_mem _ hc)

theorem serve_zero (r : Nat) : ∀ (ns : List Nat) (q : Queue), (∀ b ∈ q.pending, b = false) →
    ∀ b ∈ (Queue.serve r (firstBitSrc r) ns q).2.pending, b = false
  | [], q, h => h
  | n :: ns, q, h => by
    by_cases hn : n = r
    · simp only [Queue.serve, if_pos hn]
      exact serve_zero r ns ⟨q.pending, q.pos + 1⟩ h
    · simp only [Queue.serve, if_neg hn]
      exact serve_zero r ns _ (popN_zero r n q h)

theorem proper_one : Proper [(1, 1)] := by
  intro p hp
  rw [List.mem_singleton.1 hp]
  exact ⟨by decide, Or.inr (Or.inr (by decide))⟩

/-- **C115.** Otherwise it does not: for every number of bits there is a generator (the same for all runs) with which a run that takes a number
of bits that is not a multiple of `r` spoils the next one, in spite of the reseeding: its first bit is 0 instead of 1. -/
theorem C115_different (r : Nat) (hr : 0 < r) (hr32 : r ≤ 32) : ∃ src, Width r src ∧ reseedRuns r src [[(1, 1)]] GBState.init = .ok [[1]] ∧
    ∀ reqs, Proper reqs → ¬ r ∣ queueBits r (reqs.map Prod.fst) →
      ∃ xs, reseedRuns r src [reqs, [(1, 1)]] GBState.init = .ok [xs, [0]] := by
  have hw := firstBit_width r hr
  have hb : msbBits 0 0 = [] := rfl
  have one : ∀ (s : GBState), GBInv r s → ∀ b bs, msbBits s.left s.buf = b :: bs → r ≠ 1 →
      ∃ s', getRandBitsUints r (firstBitSrc r) [(1, 1)] { s with pos := 0 } = .ok ([valMsb [b]], s') := by
    intro s hs b bs hbs h1
    obtain ⟨s', g1, -⟩ := reseed_run r hr hr32 (firstBitSrc r) hw s hs [(1, 1)] proper_one
    refine ⟨s', ?_⟩
    rw [g1, hbs]
    simp only [List.map_cons, List.map_nil, Queue.serve, if_neg (Ne.symm h1), Queue.popN, Queue.pop]
  refine ⟨firstBitSrc r, hw, ?_, fun reqs hp hd => ?_⟩
  · obtain ⟨s', g1, -⟩ := reseed_run r hr hr32 (firstBitSrc r) hw GBState.init (gbInv_init r hr) [(1, 1)] proper_one
    rw [reseedRuns, g1, Res.bind_ok]
    simp only [reseedRuns, Res.bind_ok, Res.ok.injEq, List.cons.injEq, and_true]
    by_cases h1 : r = 1
    · subst h1
      rfl
    · simp only [List.map_cons, List.map_nil, Queue.serve, if_neg (Ne.symm h1), Queue.popN]
      rw [show (⟨msbBits GBState.init.left GBState.init.buf, 0⟩ : Queue) = ⟨[], 0⟩ from rfl]
      simp only [Queue.pop]
      have : (msbBits r (firstBitSrc r 0)).headD false = true := by
        obtain ⟨m, rfl⟩ : ∃ m, r = m + 1 := ⟨r - 1, by omega⟩
        rw [msbBits, List.range_succ_eq_map, List.map_cons, List.headD_cons]
        simp [firstBitSrc, BitVec.getLsbD_twoPow]
        omega
      rw [this]
      rfl
  · obtain ⟨s', g1, g2, g3⟩ := reseed_run r hr hr32 (firstBitSrc r) hw GBState.init (gbInv_init r hr) reqs hp
    obtain ⟨p1, p2⟩ := serve_pending r hr (firstBitSrc r) (reqs.map Prod.fst) ⟨msbBits GBState.init.left GBState.init.buf, 0⟩ hr
    have pz := serve_zero r (reqs.map Prod.fst) ⟨msbBits GBState.init.left GBState.init.buf, 0⟩ (by
      intro b hb
      exact absurd hb (by simp [GBState.init, msbBits]))
    rw [g3] at p1 p2 pz
    simp only at p1 p2 pz
    have h1 : r ≠ 1 := fun h => hd (h ▸ one_dvd _)
    cases hc : msbBits s'.left s'.buf with
    | nil =>
      exfalso
      rw [hc] at p2
      apply hd
      apply Nat.dvd_of_mod_eq_zero
      simpa [GBState.init, msbBits] using p2
    | cons b bs =>
      have hb0 : b = false := pz b (by rw [hc]; simp)
      obtain ⟨s2, f1⟩ := one s' g2 b bs hc h1
      refine ⟨(Queue.serve r (firstBitSrc r) (reqs.map Prod.fst) ⟨msbBits GBState.init.left GBState.init.buf, 0⟩).1, ?_⟩
      rw [reseedRuns, g1, Res.bind_ok]
      simp only [reseedRuns]
      rw [f1, hb0]
      rfl

theorem mask_proper {n : Nat} (hn : n ≤ 32) : n ≤ 32 ∧ ((n = 32 ∧ BitVec.ofNat 32 (2 ^ n - 1) ≠ 0) ∨ (BitVec.ofNat 32 (2 ^ n - 1) = 0 ∧ n < 32) ∨
    ∀ i < 32, (BitVec.ofNat 32 (2 ^ n - 1)).getLsbD i = decide (i < n)) := by
  refine ⟨hn, Or.inr (Or.inr fun i hi => ?_)⟩
  rw [BitVec.getLsbD_ofNat, Nat.testBit_two_pow_sub_one]
  simp [hi]

theorem bitdist_proper {r nb : Nat} (hr : r ≤ 32) (hn : nb ≤ 32) (t : Nat) (draws : List Nat) : Proper (bitdistReqs r nb t draws) := by
  intro q hq
  rw [bitdistReqs, List.mem_flatMap] at hq
  obtain ⟨d, -, hq⟩ := hq
  rcases List.mem_append.1 hq with h | h
  · rw [(List.mem_replicate.1 h).2]
    exact mask_proper hn
  · rw [(List.mem_replicate.1 h).2]
    exact mask_proper hr

theorem queueBits_append (r : Nat) (a b : List Nat) : queueBits r (a ++ b) = queueBits r a + queueBits r b := by
  simp only [queueBits, List.filter_append, List.sum_append]

theorem queueBits_pass (r k : Nat) : queueBits r (List.replicate k r) = 0 := by
  rw [queueBits, List.filter_replicate, if_neg (by simp)]
  rfl

theorem queueBits_replicate {r n : Nat} (h : n ≠ r) (k : Nat) : queueBits r (List.replicate k n) = k * n := by
  rw [queueBits, List.filter_replicate, if_pos (by simpa using h), List.sum_replicate, Nat.nsmul_eq_mul]

theorem bitdist_pass (r t : Nat) (draws : List Nat) : queueBits r ((bitdistReqs r r t draws).map Prod.fst) = 0 := by
  induction draws with
  | nil => rfl
  | cons d ds ih =>
    rw [bitdistReqs, List.flatMap_cons, List.map_append, queueBits_append]
    rw [bitdistReqs] at ih
    rw [ih, List.map_append, queueBits_append, List.map_replicate, List.map_replicate, queueBits_pass, queueBits_pass]

theorem bitdist_bits {r nb : Nat} (hn : nb ≠ r) (t : Nat) (draws : List Nat) :
    queueBits r ((bitdistReqs r nb t draws).map Prod.fst) = 64 * (draws.length * t * nb) := by
  induction draws with
  | nil => simp [bitdistReqs, queueBits]
  | cons d ds ih =>
    rw [bitdistReqs, List.flatMap_cons, List.map_append, queueBits_append]
    rw [bitdistReqs] at ih
    rw [ih, List.map_append, queueBits_append, List.map_replicate, List.map_replicate, queueBits_pass, queueBits_replicate hn, List.length_cons]
    ring

/-- **C115.** A run of rgb_bitdist asks for bits 64 times for each sample, and once more for each value that is drawn to choose a p-value. -/
theorem C115_requests (r nb t : Nat) (draws : List Nat) : (bitdistReqs r nb t draws).length = draws.length * (t * 64) + draws.sum := by
  induction draws with
  | nil => simp [bitdistReqs]
  | cons d ds ih =>
    rw [bitdistReqs] at ih ⊢
    rw [List.flatMap_cons, List.length_append, ih, List.length_append, List.length_replicate, List.length_replicate, List.length_cons,
      List.sum_cons]
    ring

/-- Two calls with three samples each, for which 1 and 4 values are drawn. -/
example : (bitdistReqs 31 5 3 [1, 4]).length = 389 := by rw [C115_requests]; rfl

/-- **C115.** The runs of rgb_bitdist (width and draws for each), for a generator of 1, 2, 4, 8, 16 or 32 bits: each sees with reseeding what
it sees alone. -/
theorem C115_bitdist (r : Nat) (hr : 0 < r) (hr32 : r ≤ 32) (src : Src) (hw : Width r src) (h64 : r ∣ 64) (t : Nat) (runs : List (Nat × List Nat))
    (hn : ∀ n ∈ runs, n.1 ≤ 32) : ∃ out, reseedRuns r src (runs.map fun n => bitdistReqs r n.1 t n.2) GBState.init = .ok out ∧
      List.Forall₂ (fun n xs => reseedRuns r src [bitdistReqs r n.1 t n.2] GBState.init = .ok [xs]) runs out := by
  obtain ⟨out, h1, h2⟩ := C115_same r hr hr32 src hw (runs.map fun n => bitdistReqs r n.1 t n.2) (by
    intro reqs hq
    obtain ⟨n, hn1, rfl⟩ := List.mem_map.1 hq
    exact bitdist_proper hr32 (hn n hn1) t _) (by
    intro reqs hq
    obtain ⟨n, hn1, rfl⟩ := List.mem_map.1 hq
    by_cases h : n.1 = r
    · rw [h, bitdist_pass]
      exact dvd_zero _
    · rw [bitdist_bits h]
      exact Dvd.dvd.mul_right h64 _)
  exact ⟨out, h1, List.forall₂_map_left_iff.1 h2⟩

/-- **C115.** For a generator of 31 bits (random(), and most of the generators that gsl has from other places) a run of rgb_bitdist spoils
the next one whenever the number of its bits is not a multiple of 31. -/
theorem C115_bitdist_31 : ∃ src, Width 31 src ∧ reseedRuns 31 src [[(1, 1)]] GBState.init = .ok [[1]] ∧ ∀ nb t draws, nb < 31 →
    ¬ 31 ∣ draws.length * t * nb → ∃ xs, reseedRuns 31 src [bitdistReqs 31 nb t draws, [(1, 1)]] GBState.init = .ok [xs, [0]] := by
  obtain ⟨src, h1, h2, h3⟩ := C115_different 31 (by decide) (by decide)
  refine ⟨src, h1, h2, fun nb t draws hn hd => h3 _ (bitdist_proper (by decide) (by omega) t draws) ?_⟩
  rw [bitdist_bits (by omega)]
  intro hc
  exact hd (Nat.Coprime.dvd_of_dvd_mul_left (by decide : Nat.Coprime 31 64) hc)

/-- The defaults of rgb_bitdist, 100 calls of 100000 samples: for width 1 the bits are not a multiple of 31. -/
example (draws : List Nat) (h : draws.length = 100) : ¬ 31 ∣ draws.length * 100000 * 1 := by rw [h]; decide

/-- Two runs on a 5-bit generator, three requests for 3 bits and a direct draw first: the second begins with the bit that the first left. -/
example : reseedRuns 5 (fun k => [0b10110, 0b01101, 0b11100, 0b00111].getD k 0) [[(3, 7), (3, 7), (3, 7), (5, 31)], [(3, 7)]] GBState.init =
      .ok [[0b101, 0b100, 0b110, 0b11100], [0b110]] ∧
    reseedRuns 5 (fun k => [0b10110, 0b01101, 0b11100, 0b00111].getD k 0) [[(3, 7)]] GBState.init = .ok [[0b101]] := by decide +kernel

end Dh
