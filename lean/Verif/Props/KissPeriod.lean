import Verif.Proof.Mwc
import Verif.Props.Kiss
/-
C102: the periods of kiss, and of the small components of superkiss.
-/
namespace Dh
namespace Spec

/-- Draw number `n` of kiss from the state `s`. -/
def kissNth (s : KissS) (n : Nat) : UInt := (kissGet (kissDraws n s).2).1

end Spec
open Spec

theorem kissDraws_state (n : Nat) : ∀ s, (kissDraws n s).2 = kissStep^[n] s := by
  induction n with
  | zero => intro s; rfl
  | succ n ih =>
    intro s
    have h : (kissDraws (n + 1) s).2 = (kissDraws n (kissGet s).2).2 := by rw [kissDraws]
    rw [h, ih, Function.iterate_succ_apply, kissGet]

/-! ### The congruential part -/

/-- The congruential part of kiss. -/
def kissX (v : UInt) : UInt := 314527869#32 * v + 1234567#32

theorem kissX_period (x : UInt) : Function.minimalPeriod kissX x = 2 ^ 32 := lcg_period 314527869#32 1234567#32 (by decide +kernel) x

/-! ### The xorshift part -/

theorem kissY_xor (u v : UInt) : kissY (u ^^^ v) = kissY u ^^^ kissY v := by
  have h : ∀ u, kissY u = lshX 22 (rshX 7 (lshX 5 u)) := fun u => rfl
  rw [h, h, h, lshX_xor, rshX_xor, lshX_xor]

theorem skXs_xor (u v : UInt) : skXs (u ^^^ v) = skXs u ^^^ skXs v := by
  have h : ∀ u, skXs u = rshX 5 (rshX 17 (lshX 13 u)) := fun u => rfl
  rw [h, h, h, lshX_xor, rshX_xor, rshX_xor]

set_option maxRecDepth 100000 in
theorem kissY_period_one : Function.minimalPeriod kissY 1#32 = 2 ^ 32 - 1 := by
  have hpow : ∀ m, m < 2 ^ 32 → (kissY^[m] 1#32).toNat = powCols 32 (wordCols kissY) m 1 :=
    fun m hm => (powCols_word kissY kissY_xor 1#32 32 m hm).symm
  refine minimalPeriod_eq_of_primes kissY 1#32 _ (by norm_num) ?_ ?_
  · apply BitVec.eq_of_toNat_eq
    rw [hpow _ (by norm_num)]
    decide +kernel
  · intro p hp hd h
    have hm := primes_of_words p hp hd
    have h1 := congrArg BitVec.toNat h
    rw [hpow _ (lt_of_le_of_lt (Nat.div_le_self _ _) (by norm_num))] at h1
    have : ∀ q ∈ [3, 5, 17, 257, 65537], powCols 32 (wordCols kissY) ((2 ^ 32 - 1) / q) 1 ≠ (1#32 : UInt).toNat := by decide +kernel
    exact this p hm h1

theorem kissY_full (y : UInt) (hy : y ≠ 0) : Function.minimalPeriod kissY y = 2 ^ 32 - 1 ∧ ∀ z, z ≠ 0 → ∃ n < 2 ^ 32 - 1, kissY^[n] y = z :=
  linear_full kissY 1#32 (by decide) (by decide) (fun u v h => kissY_inj u v h) kissY_period_one y hy

/-! ### The multiply-with-carry part -/

theorem prime_200497559 : Nat.Prime 200497559 := by
  refine prime_of_powMod _ 11 28 [2, 17, 5896987] (by norm_num) (by norm_num) ?_ (by decide +kernel) (by decide +kernel)
  intro q hq h
  rw [show 200497559 - 1 = 2 * 17 * 5896987 from by norm_num] at h
  have e : ∀ r : ℕ, r.Prime → q ∣ r → q = r := fun r hr hd => (Nat.prime_dvd_prime_iff_eq hq hr).1 hd
  rcases (Nat.Prime.dvd_mul hq).1 h with h | h
  · rcases (Nat.Prime.dvd_mul hq).1 h with h | h
    · simp [e 2 (by norm_num) h]
    · simp [e 17 (by norm_num) h]
  · simp [e 5896987 (by norm_num) h]

set_option maxRecDepth 100000 in
theorem prime_q : Nat.Prime 9222549758923505663 := by
  refine prime_of_powMod _ 5 63 [2, 7, 4561, 720367, 200497559] (by norm_num) (by norm_num) ?_ (by decide +kernel) (by decide +kernel)
  intro q hq h
  rw [show 9222549758923505663 - 1 = 2 * 7 * 4561 * 720367 * 200497559 from by norm_num] at h
  have e : ∀ r : ℕ, r.Prime → q ∣ r → q = r := fun r hr hd => (Nat.prime_dvd_prime_iff_eq hq hr).1 hd
  rcases (Nat.Prime.dvd_mul hq).1 h with h | h
  · rcases (Nat.Prime.dvd_mul hq).1 h with h | h
    · rcases (Nat.Prime.dvd_mul hq).1 h with h | h
      · rcases (Nat.Prime.dvd_mul hq).1 h with h | h
        · simp [e 2 (by norm_num) h]
        · simp [e 7 (by norm_num) h]
      · simp [e 4561 (by norm_num) h]
    · simp [e 720367 (by norm_num) h]
  · simp [e 200497559 prime_200497559 h]

set_option maxRecDepth 100000 in
theorem prime_p : Nat.Prime 18445099517847011327 := by
  refine prime_of_powMod _ 5 64 [2, 9222549758923505663] (by norm_num) (by norm_num) ?_ (by decide +kernel) (by decide +kernel)
  intro q hq h
  rw [show 18445099517847011327 - 1 = 2 * 9222549758923505663 from by norm_num] at h
  have e : ∀ r : ℕ, r.Prime → q ∣ r → q = r := fun r hr hd => (Nat.prime_dvd_prime_iff_eq hq hr).1 hd
  rcases (Nat.Prime.dvd_mul hq).1 h with h | h
  · simp [e 2 (by norm_num) h]
  · simp [e _ prime_q h]

/-- The components of the state after `n` steps. -/
theorem kiss_parts (s : KissS) (n : Nat) : (kissStep^[n] s).x = kissX^[n] s.x ∧ (kissStep^[n] s).y = kissY^[n] s.y ∧
    ((kissStep^[n] s).z.toNat, (kissStep^[n] s).c.toNat) = (mwcStep 4294584393 (2 ^ 32))^[n] (s.z.toNat, s.c.toNat) := by
  induction n with
  | zero => exact ⟨rfl, rfl, rfl⟩
  | succ n ih =>
    obtain ⟨h1, h2, h3⟩ := ih
    rw [Function.iterate_succ_apply', Function.iterate_succ_apply', Function.iterate_succ_apply', Function.iterate_succ_apply', ← h1, ← h2, ← h3]
    refine ⟨rfl, rfl, ?_⟩
    rw [mwcStep, kissStep_z, kissStep_c]

theorem mwcGood_kiss {s : KissS} (h : KissGood s) : MwcGood 4294584393 (2 ^ 32) (s.z.toNat, s.c.toNat) := ⟨s.z.isLt, h.2.1, h.2.2.1, h.2.2.2⟩

theorem kissZC_period {s : KissS} (h : KissGood s) : Function.minimalPeriod (mwcStep 4294584393 (2 ^ 32)) (s.z.toNat, s.c.toNat) = 9222549758923505663 :=
  mwc_period (e := 2 ^ 16) (p := 18445099517847011327) (by norm_num) (by norm_num) (by norm_num) prime_p prime_q (by norm_num) (by norm_num) (by norm_num)
    (mwcGood_kiss h)

/-- The residues of the multiply-with-carry part have its period. -/
theorem kissZ_period {s : KissS} (h : KissGood s) : LeastPeriod (fun n => (kissStep^[n] s).z) 9222549758923505663 := by
  have hl := leastPeriod_iterate (mwcStep 4294584393 (2 ^ 32)) (s.z.toNat, s.c.toNat) _ (by norm_num) (kissZC_period h)
  have hz : ∀ n, (kissStep^[n] s).z.toNat = ((mwcStep 4294584393 (2 ^ 32))^[n] (s.z.toNat, s.c.toNat)).1 := fun n => congrArg Prod.fst (kiss_parts s n).2.2
  refine ⟨by norm_num, fun d => ⟨fun hd => ?_, fun hd n => ?_⟩⟩
  · rw [← kissZC_period h, ← Function.isPeriodicPt_iff_minimalPeriod_dvd]
    show (mwcStep 4294584393 (2 ^ 32))^[d] (s.z.toNat, s.c.toNat) = (s.z.toNat, s.c.toNat)
    have e0 := congrArg BitVec.toNat (hd 0)
    have e1 := congrArg BitVec.toNat (hd 1)
    simp only at e0 e1
    rw [hz, hz, Nat.zero_add] at e0
    rw [hz, hz, Nat.add_comm 1 d, Function.iterate_succ_apply', Function.iterate_one] at e1
    have g := mwcGood_iterate (by norm_num) (by norm_num) (mwcGood_kiss h) d
    generalize (mwcStep 4294584393 (2 ^ 32))^[d] (s.z.toNat, s.c.toNat) = t at e0 e1 g
    have e0' : t.1 = s.z.toNat := e0
    have e1' : (4294584393 * t.1 + t.2) % 2 ^ 32 = (4294584393 * s.z.toNat + s.c.toNat) % 2 ^ 32 := e1
    have g2 : t.2 < 4294584393 := g.2.1
    have g3 : s.c.toNat < 4294584393 := h.2.1
    refine Prod.ext e0' ?_
    rw [e0'] at e1'
    have := Nat.ModEq.add_left_cancel' (4294584393 * s.z.toNat) e1'
    rw [Nat.ModEq, Nat.mod_eq_of_lt (by omega), Nat.mod_eq_of_lt (by omega)] at this
    exact this
  · apply BitVec.eq_of_toNat_eq
    rw [hz, hz]
    exact congrArg Prod.fst ((hl.2 d).2 hd n)

/-- The sum of the other two parts. -/
theorem kissYZ_period {s : KissS} (h : KissGood s) :
    LeastPeriod (fun n => (kissStep^[n] s).y + (kissStep^[n] s).z) ((2 ^ 32 - 1) * 9222549758923505663) := by
  have hy : LeastPeriod (fun n => (kissStep^[n] s).y) (2 ^ 32 - 1) := by
    have := leastPeriod_iterate kissY s.y _ (by norm_num) (kissY_full s.y h.1).1
    rw [show (fun n => (kissStep^[n] s).y) = fun n => kissY^[n] s.y from funext fun n => (kiss_parts s n).2.1]
    exact this
  exact leastPeriod_add hy (kissZ_period h) (by norm_num)

theorem kissX_least (s : KissS) : LeastPeriod (fun n => (kissStep^[n] s).x) (2 ^ 32) := by
  have := leastPeriod_iterate kissX s.x _ (by norm_num) (kissX_period s.x)
  rw [show (fun n => (kissStep^[n] s).x) = fun n => kissX^[n] s.x from funext fun n => (kiss_parts s n).1]
  exact this

theorem kissNth_eq (s : KissS) (n : Nat) :
    kissNth s n = (kissStep^[n + 1] s).x + ((kissStep^[n + 1] s).y + (kissStep^[n + 1] s).z) := by
  rw [kissNth, kissDraws_state, Function.iterate_succ_apply', kissGet, BitVec.add_assoc]

theorem kissNth_period {s : KissS} (h : KissGood s) : LeastPeriod (kissNth s) (2 ^ 32 * ((2 ^ 32 - 1) * 9222549758923505663)) := by
  have := leastPeriod_shift (leastPeriod_add (kissX_least s) (kissYZ_period h) (by norm_num)) 1
  rw [show kissNth s = _ from funext (kissNth_eq s)]
  exact this

/-- **C102.** The values of kiss, whatever the seed, repeat exactly at the multiples of `2^32 (2^32-1) (4294584393·2^31-1)`. -/
theorem C102_kiss (seed : Src) (fuel : Nat) (s : KissS) (h : kissSet seed fuel = .ok s) :
    LeastPeriod (kissNth s) (2 ^ 32 * (2 ^ 32 - 1) * (4294584393 * 2 ^ 31 - 1)) := by
  have h0 : KissGood s := by
    obtain ⟨y, i, h1, rfl⟩ := kissSet_inv seed fuel s h
    exact kissGood_seed _ _ _ _ (kissFindY_ne _ _ _ _ _ h1)
  have := kissNth_period h0
  rw [← Nat.mul_assoc] at this
  exact this

/-- **C102.** So do its states; the seeded state itself comes back. -/
theorem C102_kiss_state (seed : Src) (fuel : Nat) (s : KissS) (h : kissSet seed fuel = .ok s) :
    LeastPeriod (fun n => (kissDraws n s).2) (2 ^ 32 * (2 ^ 32 - 1) * (4294584393 * 2 ^ 31 - 1)) := by
  have h0 : KissGood s := by
    obtain ⟨y, i, h1, rfl⟩ := kissSet_inv seed fuel s h
    exact kissGood_seed _ _ _ _ (kissFindY_ne _ _ _ _ _ h1)
  have hout := C102_kiss seed fuel s h
  refine ⟨hout.1, fun d => ⟨fun hd => (hout.2 d).1 fun n => ?_, fun hd n => ?_⟩⟩
  · have e : (kissDraws (n + d) s).2 = (kissDraws n s).2 := hd n
    rw [kissNth, kissNth, e]
  · have hdx : 2 ^ 32 ∣ d := Nat.dvd_trans ⟨(2 ^ 32 - 1) * 9222549758923505663, by norm_num⟩ hd
    have hdy : 2 ^ 32 - 1 ∣ d := Nat.dvd_trans ⟨2 ^ 32 * 9222549758923505663, by norm_num⟩ hd
    have hdz : 9222549758923505663 ∣ d := Nat.dvd_trans ⟨2 ^ 32 * (2 ^ 32 - 1), by norm_num⟩ hd
    have ex := (leastPeriod_iterate kissX s.x _ (by norm_num) (kissX_period s.x)).2 d |>.2 hdx n
    have ey := (leastPeriod_iterate kissY s.y _ (by norm_num) (kissY_full s.y h0.1).1).2 d |>.2 hdy n
    have ez := (leastPeriod_iterate (mwcStep 4294584393 (2 ^ 32)) (s.z.toNat, s.c.toNat) _ (by norm_num) (kissZC_period h0)).2 d |>.2 hdz n
    simp only at ex ey ez ⊢
    rw [kissDraws_state, kissDraws_state]
    rw [← (kiss_parts s _).1, ← (kiss_parts s _).1] at ex
    rw [← (kiss_parts s _).2.1, ← (kiss_parts s _).2.1] at ey
    rw [← (kiss_parts s _).2.2, ← (kiss_parts s _).2.2] at ez
    generalize kissStep^[n + d] s = u at *
    generalize kissStep^[n] s = v at *
    obtain ⟨u1, u2, u3, u4⟩ := u
    obtain ⟨v1, v2, v3, v4⟩ := v
    simp only [Prod.mk.injEq] at ex ey ez
    rw [ex, ey, BitVec.eq_of_toNat_eq ez.1, BitVec.eq_of_toNat_eq ez.2]

/-- The sum of a sequence that runs through all words and one of a coprime period takes every value equally often. -/
theorem count_add {s t : Nat → UInt} {M : Nat} (hs : LeastPeriod s (2 ^ 32)) (hall : ∀ v, ∃ k, s k = v) (hinj : ∀ m n, s m = s n → m ≡ n [MOD 2 ^ 32])
    (ht : LeastPeriod t M) (h : (2 ^ 32).Coprime M) (v : UInt) : ((Finset.range (2 ^ 32 * M)).filter fun n => s n + t n = v).card = M := by
  have hmod : ∀ {u : Nat → UInt} {P : Nat}, LeastPeriod u P → ∀ m n, m ≡ n [MOD P] → u m = u n := by
    intro u P hu m n hmn
    rcases Nat.le_total m n with hle | hle
    · have hd : P ∣ n - m := (Nat.modEq_iff_dvd' hle).1 hmn
      have := (hu.2 _).2 hd m
      rw [Nat.add_sub_cancel' hle] at this
      exact this.symm
    · have hd : P ∣ m - n := (Nat.modEq_iff_dvd' hle).1 hmn.symm
      have := (hu.2 _).2 hd n
      rw [Nat.add_sub_cancel' hle] at this
      exact this
  rw [← Finset.card_range M]
  conv_rhs => rw [← Finset.card_range M]
  rw [Finset.card_range]
  refine Finset.card_nbij (fun n => n % M) ?_ ?_ ?_
  · intro n _
    rw [Finset.mem_coe, Finset.mem_range]
    exact Nat.mod_lt _ ht.1
  · intro m hm n hn e
    simp only [Finset.coe_filter, Finset.mem_range, Set.mem_setOf_eq] at hm hn
    have e1 : t m = t n := hmod ht m n e
    have e2 : s m = s n := by
      have := hm.2.trans hn.2.symm
      rw [e1] at this
      exact (BitVec.add_left_inj (t n)).1 this
    have e3 := (Nat.modEq_and_modEq_iff_modEq_mul h).1 ⟨hinj m n e2, e⟩
    rw [Nat.ModEq, Nat.mod_eq_of_lt hm.1, Nat.mod_eq_of_lt hn.1] at e3
    exact e3
  · intro r hr
    rw [Finset.mem_coe, Finset.mem_range] at hr
    obtain ⟨k, hk⟩ := hall (v - t r)
    let c := Nat.chineseRemainder h k r
    have hc1 : (c : ℕ) % (2 ^ 32 * M) ≡ k [MOD 2 ^ 32] := ((Nat.mod_modEq _ _).of_dvd ⟨M, rfl⟩).trans c.2.1
    have hc2 : (c : ℕ) % (2 ^ 32 * M) ≡ r [MOD M] := ((Nat.mod_modEq _ _).of_dvd ⟨2 ^ 32, Nat.mul_comm _ _⟩).trans c.2.2
    refine ⟨(c : ℕ) % (2 ^ 32 * M), ?_, ?_⟩
    · simp only [Finset.coe_filter, Finset.mem_range, Set.mem_setOf_eq]
      refine ⟨Nat.mod_lt _ (Nat.mul_pos (by norm_num) ht.1), ?_⟩
      rw [hmod hs _ _ hc1, hmod ht _ _ hc2, hk, BitVec.sub_add_cancel]
    · show (c : ℕ) % (2 ^ 32 * M) % M = r
      rw [show (c : ℕ) % (2 ^ 32 * M) % M = r % M from hc2, Nat.mod_eq_of_lt hr]

/-- A map of words with a point of period `2^32` runs through all words. -/
theorem orbit_all {f : UInt → UInt} {x : UInt} (h : Function.minimalPeriod f x = 2 ^ 32) :
    (∀ v, ∃ k, f^[k] x = v) ∧ ∀ m n, f^[m] x = f^[n] x → m ≡ n [MOD 2 ^ 32] := by
  have hmem : x ∈ Function.periodicPts f := Function.minimalPeriod_pos_iff_mem_periodicPts.1 (by rw [h]; norm_num)
  have hI : ∀ m n, f^[m] x = f^[n] x → m ≡ n [MOD 2 ^ 32] := by
    intro m n e
    rw [← Function.iterate_mod_minimalPeriod_eq (n := m), ← Function.iterate_mod_minimalPeriod_eq (n := n), h] at e
    have hlt : ∀ j, j % 2 ^ 32 ∈ Set.Iio (Function.minimalPeriod f x) := fun j => by
      rw [Set.mem_Iio, h]; exact Nat.mod_lt _ (by norm_num)
    exact Function.iterate_injOn_Iio_minimalPeriod (hlt m) (hlt n) e
  refine ⟨fun v => ?_, hI⟩
  let g : Fin (2 ^ 32) → Fin (2 ^ 32) := fun n => (f^[n] x).toFin
  have hg : Function.Injective g := by
    intro m n e
    have e1 : f^[(m : ℕ)] x = f^[(n : ℕ)] x := BitVec.eq_of_toFin_eq e
    have := hI m n e1
    rw [Nat.ModEq, Nat.mod_eq_of_lt m.2, Nat.mod_eq_of_lt n.2] at this
    exact Fin.ext this
  obtain ⟨k, hk⟩ := (Finite.injective_iff_surjective.1 hg) v.toFin
  exact ⟨k, BitVec.eq_of_toFin_eq hk⟩

/-- **C102.** In a period of kiss each of the `2^32` words occurs equally often. -/
theorem C102_kiss_uniform (seed : Src) (fuel : Nat) (s : KissS) (h : kissSet seed fuel = .ok s) (v : UInt) :
    ((Finset.range (2 ^ 32 * ((2 ^ 32 - 1) * (4294584393 * 2 ^ 31 - 1)))).filter fun n => kissNth s n = v).card =
      (2 ^ 32 - 1) * (4294584393 * 2 ^ 31 - 1) := by
  have h0 : KissGood s := by
    obtain ⟨y, i, h1, rfl⟩ := kissSet_inv seed fuel s h
    exact kissGood_seed _ _ _ _ (kissFindY_ne _ _ _ _ _ h1)
  have hx := leastPeriod_shift (kissX_least s) 1
  have hyz := leastPeriod_shift (kissYZ_period h0) 1
  have ho := orbit_all (kissX_period s.x)
  have hxe : ∀ n, (kissStep^[n] s).x = kissX^[n] s.x := fun n => (kiss_parts s n).1
  have := count_add (v := v) hx (fun v => by
      obtain ⟨k, hk⟩ := ho.1 v
      refine ⟨k + (2 ^ 32 - 1), ?_⟩
      show (kissStep^[k + (2 ^ 32 - 1) + 1] s).x = v
      rw [hxe, show k + (2 ^ 32 - 1) + 1 = k + 2 ^ 32 from by omega, ← hk]
      exact ((leastPeriod_iterate kissX s.x _ (by norm_num) (kissX_period s.x)).2 (2 ^ 32)).2 (dvd_refl _) k) (fun m n e => by
      have e' : (kissStep^[m + 1] s).x = (kissStep^[n + 1] s).x := e
      rw [hxe, hxe] at e'
      exact Nat.ModEq.add_right_cancel' 1 (ho.2 _ _ e')) hyz (by norm_num)
  simp only [kissNth_eq]
  exact this

/-! ### superkiss -/

/-- The prime divisors of 306706140. -/
theorem primes_of_sk (p : Nat) (hp : p.Prime) (h : p ∣ 306706140) : p ∈ [2, 3, 5, 13, 131071] := by
  rw [show 306706140 = 2 * 2 * 3 * 3 * 5 * 13 * 131071 from by norm_num] at h
  have e : ∀ q : ℕ, q.Prime → p ∣ q → p = q := fun q hq hd => (Nat.prime_dvd_prime_iff_eq hp hq).1 hd
  rcases (Nat.Prime.dvd_mul hp).1 h with h | h
  · rcases (Nat.Prime.dvd_mul hp).1 h with h | h
    · rcases (Nat.Prime.dvd_mul hp).1 h with h | h
      · rcases (Nat.Prime.dvd_mul hp).1 h with h | h
        · rcases (Nat.Prime.dvd_mul hp).1 h with h | h
          · rcases (Nat.Prime.dvd_mul hp).1 h with h | h
            · simp [e 2 (by norm_num) h]
            · simp [e 2 (by norm_num) h]
          · simp [e 3 (by norm_num) h]
        · simp [e 3 (by norm_num) h]
      · simp [e 5 (by norm_num) h]
    · simp [e 13 (by norm_num) h]
  · simp [e 131071 (by norm_num) h]

set_option maxRecDepth 100000 in
theorem skXs_period : Function.minimalPeriod skXs 521288629#32 = 306706140 := by
  have hpow : ∀ m, m < 2 ^ 32 → (skXs^[m] 521288629#32).toNat = powCols 32 (wordCols skXs) m 521288629 :=
    fun m hm => (powCols_word skXs skXs_xor 521288629#32 32 m hm).symm
  refine minimalPeriod_eq_of_primes skXs 521288629#32 _ (by norm_num) ?_ ?_
  · apply BitVec.eq_of_toNat_eq
    rw [hpow _ (by norm_num)]
    decide +kernel
  · intro p hp hd h
    have hm := primes_of_sk p hp hd
    have h1 := congrArg BitVec.toNat h
    rw [hpow _ (lt_of_le_of_lt (Nat.div_le_self _ _) (by norm_num))] at h1
    have : ∀ q ∈ [2, 3, 5, 13, 131071], powCols 32 (wordCols skXs) (306706140 / q) 521288629 ≠ (521288629#32 : UInt).toNat := by decide +kernel
    exact this p hm h1

theorem skDraws_after (seed : Src) : ∀ n k, ∃ vs, skDraws n (skAfter seed k) = .ok (vs, skAfter seed (k + n))
  | 0, k => ⟨[], rfl⟩
  | n + 1, k => by
    obtain ⟨q, -, g⟩ := skGet_after seed k
    obtain ⟨vs, hv⟩ := skDraws_after seed n (k + 1)
    refine ⟨(q.zeroExtend 64 + (skXcng (k + 1)).zeroExtend 64 + (skXsN (k + 1)).zeroExtend 64) :: vs, ?_⟩
    rw [skDraws, g]
    simp only [Res.bind_ok]
    rw [hv]
    simp only [Res.bind_ok]
    rw [show k + 1 + n = k + (n + 1) from by omega]

/-- **C102.** superkiss, whatever the seed: the congruential part has the period `2^32`, the xorshift part only 306706140. -/
theorem C102_superkiss (seed : Src) : ∃ xcng xs : Nat → UInt, LeastPeriod xcng (2 ^ 32) ∧ LeastPeriod xs 306706140 ∧
    ∀ n, ∃ vs s, skDraws n (skSet seed) = .ok (vs, s) ∧ s.xcng = xcng n ∧ s.xs = xs n := by
  refine ⟨skXcng, skXsN, ?_, ?_, fun n => ?_⟩
  · exact leastPeriod_iterate _ _ _ (by norm_num) (lcg_period 69069#32 123#32 (by decide +kernel) 1236789#32)
  · exact leastPeriod_iterate _ _ _ (by norm_num) skXs_period
  · obtain ⟨vs, hv⟩ := skDraws_after seed n 0
    rw [← skAfter_zero]
    refine ⟨vs, _, hv, ?_, ?_⟩
    · rw [Nat.zero_add]; rfl
    · rw [Nat.zero_add]; rfl

/-! ### Examples -/

-- The period of kiss is beyond 2^126.
example : 2 ^ 126 < 2 ^ 32 * (2 ^ 32 - 1) * (4294584393 * 2 ^ 31 - 1) := by norm_num

-- A seed: the first values of the seeding generator are 1, 2, 3, 4.
example : kissSet (fun i => BitVec.ofNat 32 (i + 1)) 1 = .ok ⟨1#32, 2#32, 3#32, 5#32⟩ := by decide +kernel
example : LeastPeriod (kissNth ⟨1#32, 2#32, 3#32, 5#32⟩) (2 ^ 32 * (2 ^ 32 - 1) * (4294584393 * 2 ^ 31 - 1)) :=
  C102_kiss (fun i => BitVec.ofNat 32 (i + 1)) 1 _ (by decide +kernel)

-- A state that seeding avoids, with y = 0: the sequence of y has the period 1.
example : LeastPeriod (fun n => kissY^[n] 0#32) 1 :=
  leastPeriod_iterate _ _ _ (by norm_num) (Function.minimalPeriod_eq_one_iff_isFixedPt.2 (by decide))

set_option maxRecDepth 100000 in
-- superkiss with the usual last line `xs ^= xs << 5` would not be back after 306706140 draws.
example : powCols 32 (wordCols fun u => lshX 5 (rshX 17 (lshX 13 u))) 306706140 521288629 ≠ 521288629 := by decide +kernel

end Dh
