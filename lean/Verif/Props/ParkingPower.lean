import Verif.Model.ParkingTest
import Verif.Props.Parking
import Verif.Props.SpherePower
/-
C152: what diehard_parking_lot always finds.
-/
namespace Dh
open Spec

namespace Spec

/-- The place tried in attempt `n`. -/
def place (u : ℕ → ℚ) (n : ℕ) : Car := ⟨100 * u (2 * n), 100 * u (2 * n + 1)⟩

/-- The square of side 1 a place lies in. -/
def square (c : Car) : ℤ × ℤ := (⌊c.x⌋, ⌊c.y⌋)

/-- The squares tried. -/
def squares (u : ℕ → ℚ) : Finset (ℤ × ℤ) := (Finset.range 12000).image fun n => square (place u n)

/-- The places tried. -/
def triedPlaces (u : ℕ → ℚ) : Finset (ℚ × ℚ) := (Finset.range 12000).image fun n => (u (2 * n), u (2 * n + 1))

end Spec

theorem crash_symm {a b : Car} (h : Crash a b) : Crash b a := by
  obtain ⟨⟨h1, h2⟩, h3, h4⟩ := h
  refine ⟨⟨?_, ?_⟩, ?_, ?_⟩ <;> linarith

theorem accepted_apart {car : Nat → Car} {n : Nat} {acc : List Nat} (h : Accepted car n acc) {i j : Nat} (hi : i ∈ acc) (hj : j ∈ acc) (hij : i ≠ j) :
    ¬ Crash (car i) (car j) := by
  rcases Nat.lt_or_gt_of_ne hij with hlt | hlt
  · exact fun hc => go i hi j hj hlt hc
  · exact fun hc => go j hj i hi hlt (crash_symm hc)
where
  go : ∀ i ∈ acc, ∀ j ∈ acc, i < j → ¬ Crash (car i) (car j) := by
    intro i hi j hj hij
    obtain ⟨p, hp, rfl⟩ := List.mem_iff_getElem.1 hi
    obtain ⟨q, hq, rfl⟩ := List.mem_iff_getElem.1 hj
    have hpq : p < q := by
      by_contra hle
      rcases Nat.lt_or_eq_of_le (Nat.le_of_not_lt hle) with h' | h'
      · have := List.pairwise_iff_getElem.1 h.sorted q p hq hp h'
        omega
      · subst h'; omega
    exact List.pairwise_iff_getElem.1 h.apart p q hp hq hpq

theorem floor_near {a b : ℚ} (h1 : -1 ≤ a - b) (h2 : a - b ≤ 1) : ⌊a⌋ - 1 ≤ ⌊b⌋ ∧ ⌊b⌋ ≤ ⌊a⌋ + 1 := by
  constructor
  · rw [Int.le_floor]
    push_cast
    linarith [Int.floor_le a]
  · rw [← Int.lt_add_one_iff, Int.floor_lt]
    push_cast
    linarith [Int.lt_floor_add_one a]

theorem square_crash {a b : Car} (h : square a = square b) : Crash a b := by
  have h1 : ⌊a.x⌋ = ⌊b.x⌋ := congrArg Prod.fst h
  have h2 : ⌊a.y⌋ = ⌊b.y⌋ := congrArg Prod.snd h
  have near : ∀ p q : ℚ, ⌊p⌋ = ⌊q⌋ → -1 ≤ p - q ∧ p - q ≤ 1 := fun p q e => by
    have e' : (⌊p⌋ : ℚ) = ⌊q⌋ := by rw [e]
    have := Int.floor_le p
    have := Int.lt_floor_add_one p
    have := Int.floor_le q
    have := Int.lt_floor_add_one q
    constructor <;> linarith
  exact ⟨near _ _ h1, near _ _ h2⟩

/-- The p-value in terms of the accepted attempts. -/
theorem parking_run (cdf : ℝ → ℝ → ℝ) (u : ℕ → ℚ) : ∃ acc, Accepted (place u) 12000 acc ∧
    diehardParkingLot cdf u = .ok (xtestEval cdf (acc.length : ℕ) 3523 21.9) := by
  obtain ⟨parked, k, acc, h1, h2, h3, -⟩ := C47_parking (place u)
  refine ⟨acc, h2, ?_⟩
  have h1' : parkingLot (fun n => ⟨100 * u (2 * n), 100 * u (2 * n + 1)⟩) = .ok (parked, k) := h1
  rw [diehardParkingLot, h1', Res.bind_ok, h3]

theorem accepted_card {car : Nat → Car} {n : Nat} {acc : List Nat} (h : Accepted car n acc) : acc.toFinset.card = acc.length :=
  List.toFinset_card_of_nodup (h.sorted.imp fun h => Nat.ne_of_lt h)

theorem accepted_le_squares (u : ℕ → ℚ) (acc : List ℕ) (h : Accepted (place u) 12000 acc) : acc.length ≤ (squares u).card := by
  rw [← accepted_card h]
  refine Finset.card_le_card_of_injOn (fun n => square (place u n)) (fun i hi => ?_) fun i hi j hj e => ?_
  · exact Finset.mem_image.2 ⟨i, Finset.mem_range.2 (h.lt i (List.mem_toFinset.1 hi)), rfl⟩
  · by_contra hne
    exact accepted_apart h (List.mem_toFinset.1 hi) (List.mem_toFinset.1 hj) hne (square_crash e)

theorem squares_le_accepted (u : ℕ → ℚ) (acc : List ℕ) (h : Accepted (place u) 12000 acc) : (squares u).card ≤ 9 * acc.length := by
  have hsub : squares u ⊆ acc.toFinset.biUnion fun i =>
      Finset.Icc (⌊(place u i).x⌋ - 1) (⌊(place u i).x⌋ + 1) ×ˢ Finset.Icc (⌊(place u i).y⌋ - 1) (⌊(place u i).y⌋ + 1) := by
    intro s hs
    obtain ⟨m, hm, rfl⟩ := Finset.mem_image.1 hs
    rw [Finset.mem_biUnion]
    by_cases hma : m ∈ acc
    · refine ⟨m, List.mem_toFinset.2 hma, ?_⟩
      rw [Finset.mem_product, Finset.mem_Icc, Finset.mem_Icc]
      simp only [square]
      omega
    · obtain ⟨i, hi, -, hc⟩ := h.rejected m (Finset.mem_range.1 hm) hma
      refine ⟨i, List.mem_toFinset.2 hi, ?_⟩
      rw [Finset.mem_product, Finset.mem_Icc, Finset.mem_Icc]
      exact ⟨floor_near hc.1.1 hc.1.2, floor_near hc.2.1 hc.2.2⟩
  refine (Finset.card_le_card hsub).trans (Finset.card_biUnion_le.trans ?_)
  rw [Finset.sum_congr rfl fun i _ => show _ = 9 by
    rw [Finset.card_product, Int.card_Icc, Int.card_Icc, show ⌊(place u i).x⌋ + 1 + 1 - (⌊(place u i).x⌋ - 1) = 3 by ring,
      show ⌊(place u i).y⌋ + 1 + 1 - (⌊(place u i).y⌋ - 1) = 3 by ring]
    rfl]
  rw [Finset.sum_const, accepted_card h, smul_eq_mul, mul_comm]

/-- **C152, the number of cars.**  The number of parked cars lies between a ninth of the number of squares of side 1 that are tried and
that number; on deviates in `[0, 1)` it is at most 10000. -/
theorem C152_cars (cdf : ℝ → ℝ → ℝ) (u : ℕ → ℚ) : ∃ k : ℕ, diehardParkingLot cdf u = .ok (xtestEval cdf k 3523 21.9) ∧
    (squares u).card ≤ 9 * k ∧ k ≤ (squares u).card ∧ ((∀ i, 0 ≤ u i ∧ u i < 1) → k ≤ 10000) := by
  obtain ⟨acc, h1, h2⟩ := parking_run cdf u
  refine ⟨acc.length, h2, squares_le_accepted u acc h1, accepted_le_squares u acc h1, fun hu => ?_⟩
  refine (accepted_le_squares u acc h1).trans ?_
  have hsub : squares u ⊆ Finset.Ico (0 : ℤ) 100 ×ˢ Finset.Ico (0 : ℤ) 100 := by
    refine Finset.image_subset_iff.2 fun m _ => ?_
    have hb : ∀ i, 0 ≤ ⌊100 * u i⌋ ∧ ⌊100 * u i⌋ < 100 := fun i => by
      constructor
      · rw [Int.floor_nonneg]
        linarith [hu i]
      · rw [Int.floor_lt]
        push_cast
        linarith [hu i]
    rw [Finset.mem_product, Finset.mem_Ico, Finset.mem_Ico]
    exact ⟨hb _, hb _⟩
  refine (Finset.card_le_card hsub).trans (le_of_eq ?_)
  rw [Finset.card_product, Int.card_Ico, show ((100 : ℤ) - 0).toNat = 100 from rfl]

/-- **C152, few squares.**  The test fails if in every run the places tried lie in 3435 of the 10000 squares of side 1. -/
theorem C152_few (us : List (ℕ → ℚ)) (h : ∀ u ∈ us, (squares u).card ≤ 3435) :
    ∃ ps : List ℝ, us.map (diehardParkingLot normalCdf) = ps.map .ok ∧ FailsHigh ps := by
  obtain ⟨ps, h1, h2⟩ := runs_exist (diehardParkingLot normalCdf) (fun p => 0.9996 ≤ p ∧ p ≤ 1) us fun u hu => by
    obtain ⟨k, e, -, hk, -⟩ := C152_cars normalCdf u
    refine ⟨_, e, (xtest_four k 3523 21.9 (by norm_num)).2 ?_⟩
    have : (k : ℝ) ≤ 3435 := by exact_mod_cast hk.trans (h u hu)
    linarith
  exact ⟨ps, h1, C139_high ps h2⟩

theorem squares_le_places (u : ℕ → ℚ) : (squares u).card ≤ (triedPlaces u).card := by
  have : squares u ⊆ (triedPlaces u).image fun c => (⌊100 * c.1⌋, ⌊100 * c.2⌋) := by
    intro s hs
    obtain ⟨m, hm, rfl⟩ := Finset.mem_image.1 hs
    exact Finset.mem_image.2 ⟨_, Finset.mem_image_of_mem _ hm, rfl⟩
  exact (Finset.card_le_card this).trans Finset.card_image_le

/-- **C152, short periods.**  The test fails on every generator whose deviates have a period of at most 3435. -/
theorem C152_period (us : List (ℕ → ℚ)) (T : ℕ) (hT : 1 ≤ T) (hT' : T ≤ 3435) (h : ∀ u ∈ us, ∀ k, u (k + T) = u k) :
    ∃ ps : List ℝ, us.map (diehardParkingLot normalCdf) = ps.map .ok ∧ FailsHigh ps := by
  refine C152_few us fun u hu => (squares_le_places u).trans (le_trans ?_ hT')
  have hper : ∀ q k, u (k + T * q) = u k := by
    intro q
    induction q with
    | zero => exact fun k => rfl
    | succ q ih => intro k; rw [show k + T * (q + 1) = k + T * q + T by ring, h u hu, ih]
  have : triedPlaces u ⊆ (Finset.range T).image fun n => (u (2 * n), u (2 * n + 1)) := by
    intro s hs
    obtain ⟨m, hm, rfl⟩ := Finset.mem_image.1 hs
    refine Finset.mem_image.2 ⟨m % T, Finset.mem_range.2 (Nat.mod_lt _ (by omega)), ?_⟩
    have e : m = m % T + T * (m / T) := (Nat.mod_add_div m T).symm
    have e1 : 2 * m = 2 * (m % T) + T * (2 * (m / T)) := by
      conv_lhs => rw [e]
      ring
    rw [e1, hper, show 2 * (m % T) + T * (2 * (m / T)) + 1 = 2 * (m % T) + 1 + T * (2 * (m / T)) by ring, hper]
  exact (Finset.card_le_card this).trans (Finset.card_image_le.trans (by rw [Finset.card_range]))

/-- **C152, few values.**  The test fails if in every run the deviates take at most 58 values. -/
theorem C152_values (us : List (ℕ → ℚ)) (h : ∀ u ∈ us, ∃ V : Finset ℚ, V.card ≤ 58 ∧ ∀ k, u k ∈ V) :
    ∃ ps : List ℝ, us.map (diehardParkingLot normalCdf) = ps.map .ok ∧ FailsHigh ps := by
  refine C152_few us fun u hu => (squares_le_places u).trans ?_
  obtain ⟨V, hV, hm⟩ := h u hu
  have : triedPlaces u ⊆ V ×ˢ V := by
    intro s hs
    obtain ⟨m, _, rfl⟩ := Finset.mem_image.1 hs
    exact Finset.mem_product.2 ⟨hm _, hm _⟩
  refine (Finset.card_le_card this).trans ?_
  rw [Finset.card_product]
  nlinarith

theorem lattice_apart (v : ℕ) (hv : 0 < v) (hv' : v < 100) (a b : ℤ) (h1 : -1 ≤ 100 * ((a : ℚ) / v) - 100 * ((b : ℚ) / v))
    (h2 : 100 * ((a : ℚ) / v) - 100 * ((b : ℚ) / v) ≤ 1) : a = b := by
  have hv0 : (0 : ℚ) < v := by exact_mod_cast hv
  have e : 100 * ((a : ℚ) / v) - 100 * ((b : ℚ) / v) = 100 * (a - b) / v := by
    field_simp
  rw [e] at h1 h2
  rw [le_div_iff₀ hv0] at h1
  rw [div_le_iff₀ hv0] at h2
  have h3 : -1 * (v : ℤ) ≤ 100 * (a - b) := by exact_mod_cast h1
  have h4 : 100 * (a - b) ≤ 1 * (v : ℤ) := by exact_mod_cast h2
  omega

/-- **C152, coarse deviates.**  If the deviates are multiples of `1/v` with `v < 100`, no two different places crash and the number of
parked cars is the number of places tried.  So the test fails if that is 3611 or more in every run: `v = 64`, a generator of 6 bits,
that comes by nine tenths of the pairs. -/
theorem C152_coarse (v : ℕ) (hv : 0 < v) (hv' : v < 100) :
    (∀ (cdf : ℝ → ℝ → ℝ) (u : ℕ → ℚ), (∀ i, ∃ a : ℤ, u i = a / v) → diehardParkingLot cdf u = .ok (xtestEval cdf (triedPlaces u).card 3523 21.9)) ∧
    ∀ us : List (ℕ → ℚ), (∀ u ∈ us, (∀ i, ∃ a : ℤ, u i = a / v) ∧ 3611 ≤ (triedPlaces u).card) →
      ∃ ps : List ℝ, us.map (diehardParkingLot normalCdf) = ps.map .ok ∧ FailsLow ps := by
  have hrun : ∀ (cdf : ℝ → ℝ → ℝ) (u : ℕ → ℚ), (∀ i, ∃ a : ℤ, u i = a / v) →
      diehardParkingLot cdf u = .ok (xtestEval cdf (triedPlaces u).card 3523 21.9) := by
    intro cdf u hu
    obtain ⟨acc, h1, h2⟩ := parking_run cdf u
    have hsame : ∀ i j, Crash (place u i) (place u j) → (u (2 * i), u (2 * i + 1)) = (u (2 * j), u (2 * j + 1)) := by
      intro i j hc
      have one : ∀ p q, -1 ≤ 100 * u p - 100 * u q → 100 * u p - 100 * u q ≤ 1 → u p = u q := by
        intro p q g1 g2
        obtain ⟨a, ha⟩ := hu p
        obtain ⟨b, hb⟩ := hu q
        rw [ha, hb] at g1 g2 ⊢
        rw [lattice_apart v hv hv' a b g1 g2]
      exact Prod.ext (one _ _ hc.1.1 hc.1.2) (one _ _ hc.2.1 hc.2.2)
    have hle : (triedPlaces u).card ≤ acc.length := by
      rw [← accepted_card h1]
      have : triedPlaces u ⊆ acc.toFinset.image fun n => (u (2 * n), u (2 * n + 1)) := by
        intro s hs
        obtain ⟨m, hm, rfl⟩ := Finset.mem_image.1 hs
        by_cases hma : m ∈ acc
        · exact Finset.mem_image_of_mem _ (List.mem_toFinset.2 hma)
        · obtain ⟨i, hi, -, hc⟩ := h1.rejected m (Finset.mem_range.1 hm) hma
          exact Finset.mem_image.2 ⟨i, List.mem_toFinset.2 hi, hsame i m hc⟩
      exact (Finset.card_le_card this).trans Finset.card_image_le
    rw [h2, le_antisymm hle ((accepted_le_squares u acc h1).trans (squares_le_places u))]
  refine ⟨hrun, fun us h => ?_⟩
  obtain ⟨ps, h1, h2⟩ := runs_exist (diehardParkingLot normalCdf) (fun p => 0 ≤ p ∧ p ≤ 0.0004) us fun u hu => by
    refine ⟨_, hrun normalCdf u (h u hu).1, (xtest_four _ 3523 21.9 (by norm_num)).1 ?_⟩
    have : (3611 : ℝ) ≤ (triedPlaces u).card := by exact_mod_cast (h u hu).2
    linarith
  exact ⟨ps, h1, C137_low ps h2⟩

/-- A constant generator parks one car, a hundred times over. -/
example (c : ℚ) : ∃ ps : List ℝ, (List.replicate 100 fun _ : ℕ => c).map (diehardParkingLot normalCdf) = ps.map .ok ∧ FailsHigh ps :=
  C152_period _ 1 le_rfl (by norm_num) fun u hu k => by rw [List.eq_of_mem_replicate hu]

/-- Generators of 5 bits, whatever they do. -/
example (x : ℕ → ℕ) (hx : ∀ k, x k < 32) :
    ∃ ps : List ℝ, (List.replicate 100 fun k : ℕ => (x k : ℚ) / 32).map (diehardParkingLot normalCdf) = ps.map .ok ∧ FailsHigh ps := by
  refine C152_values _ fun u hu => ⟨(Finset.range 32).image fun m : ℕ => (m : ℚ) / 32, Finset.card_image_le.trans (by simp), fun k => ?_⟩
  rw [List.eq_of_mem_replicate hu]
  exact Finset.mem_image.2 ⟨x k, Finset.mem_range.2 (hx k), rfl⟩

/-- Six bits, all the pairs in turn: 4096 cars and a failure at the other end. -/
example : ∃ ps : List ℝ, (List.replicate 100 fun k : ℕ => (((if k % 2 = 0 then k / 2 / 64 % 64 else k / 2 % 64 : ℕ) : ℤ) : ℚ) / (64 : ℕ)).map
    (diehardParkingLot normalCdf) = ps.map .ok ∧ FailsLow ps := by
  refine (C152_coarse 64 (by norm_num) (by norm_num)).2 _ fun u hu => ?_
  rw [List.eq_of_mem_replicate hu]
  refine ⟨fun i => ⟨_, rfl⟩, ?_⟩
  have h : (Finset.range 4096).card ≤ (triedPlaces fun k : ℕ => (((if k % 2 = 0 then k / 2 / 64 % 64 else k / 2 % 64 : ℕ) : ℤ) : ℚ) / (64 : ℕ)).card := by
    refine Finset.card_le_card_of_injOn (fun n => ((((n / 64 % 64 : ℕ) : ℤ) : ℚ) / (64 : ℕ), (((n % 64 : ℕ) : ℤ) : ℚ) / (64 : ℕ))) (fun n hn => ?_) fun a ha b hb e => ?_
    · have hn' := Finset.mem_range.1 hn
      refine Finset.mem_image.2 ⟨n, Finset.mem_range.2 (by omega), ?_⟩
      simp only
      rw [if_pos (by omega), if_neg (by omega), show 2 * n / 2 = n by omega, show (2 * n + 1) / 2 = n by omega]
    · have ha' := Finset.mem_range.1 ha
      have hb' := Finset.mem_range.1 hb
      simp only [Prod.mk.injEq] at e
      obtain ⟨e1, e2⟩ := e
      rw [div_left_inj' (by norm_num)] at e1 e2
      have g1 : a / 64 % 64 = b / 64 % 64 := by exact_mod_cast e1
      have g2 : a % 64 = b % 64 := by exact_mod_cast e2
      omega
  rw [Finset.card_range] at h
  omega

end Dh
