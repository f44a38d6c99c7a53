import Verif.Proof.NtupleCyclic
set_option linter.unusedSimpArgs false
namespace Dh
open Spec

/-- The requests that abort the program: wider than a word, starting and ending strictly
inside (different) words, with the end position to the right of the start position. -/
def CyclicAborts (ntuple offset : Nat) : Prop :=
  32 < ntuple ∧ 0 < offset % 32 ∧ offset % 32 < (offset + ntuple) % 32

instance (n o : Nat) : Decidable (CyclicAborts n o) := by unfold CyclicAborts; infer_instance

theorem OutInv.rightBit {jlen : Nat} {g : Nat → Bool} {c : Nat} {out : List UInt}
    (h : OutInv jlen g c out) (hc : c ≤ 32 * jlen) (t : Nat) :
    rightBit out t = (decide (t < c) && g t) := by
  unfold Spec.rightBit
  by_cases ht : t / 32 < jlen
  · rw [List.getD_eq_getElem?_getD, List.getElem?_reverse (by rw [h.1]; exact ht),
      ← List.getD_eq_getElem?_getD, h.1, h.2 (t/32) ht (t % 32) (by omega)]
    have : 32 * (t / 32) + t % 32 = t := Nat.div_add_mod t 32
    rw [this]
  · rw [List.getD_eq_getElem?_getD, List.getElem?_eq_none (by simp [h.1]; omega)]
    have : ¬ t < c := by omega
    simp [this]

theorem getNtupleCyclic_raw (input : List UInt) (jlen n offset : Nat) (hlen : 0 < input.length)
    (hn : 0 < n) (hfit : n ≤ 32 * jlen) (hsmall : offset + n < 2 ^ 32) :
    (¬ CyclicAborts n offset → ∃ out, getNtupleCyclic input input.length jlen n offset = .ok out ∧
      OutInv jlen (gBit input (offset + n)) n out) ∧
    (CyclicAborts n offset → getNtupleCyclic input input.length jlen n offset = .exit) := by
  obtain ⟨bs, hbs⟩ : ∃ bs, bs = offset % 32 := ⟨_, rfl⟩
  obtain ⟨O, hO⟩ : ∃ O, O = offset / 32 := ⟨_, rfl⟩
  obtain ⟨K, hK⟩ : ∃ K, K = (offset + n - 1) / 32 := ⟨_, rfl⟩
  obtain ⟨be, hbe⟩ : ∃ be, be = offset + n - 32 * K := ⟨_, rfl⟩
  have hoff : offset = 32 * O + bs := by omega
  have hbs31 : bs ≤ 31 := by omega
  have hN : offset + n = 32 * K + be := by omega
  have hbe0 : 1 ≤ be := by omega
  have hbe32 : be ≤ 32 := by omega
  have hOK : O ≤ K := by omega
  -- normalise the index computations
  have hbeI : (if (offset + n) % 32 = 0 then (32 : Int) else ((offset + n) % 32 : Nat)) = (be : Int) := by
    split <;> omega
  have hbsI : ((offset % 32 : Nat) : Int) = (bs : Int) := by omega
  have hi0 : (if (be : Int) = 32 then (((offset + n) / 32 : Nat) : Int) - 1 else (((offset + n) / 32 : Nat) : Int)) = (K : Int) := by
    split <;> omega
  have hiu : (u32 (K : Int)).toNat = K := by
    unfold u32; rw [BitVec.toNat_ofInt]; omega
  have hjl : 0 < jlen := by omega
  have hZ := OutInv.zero jlen (gBit input (offset + n))
  have unf : getNtupleCyclic input input.length jlen n offset =
      (do
        let p ← (if (n : Int) = 32 - bs then do
            let o ← addWindow input (List.replicate jlen 0) ((K % input.length : Nat) : Int) ((jlen : Int) - 1) bs 31 (32 - (32 - bs))
            pure (o, (n : Int) - (32 - bs))
          else pure (List.replicate jlen 0, (n : Int)) : Res (List UInt × Int))
        let p ← (if p.2 = (be : Int) - bs then do
            let o ← setWindow input p.1 ((K % input.length : Nat) : Int) ((jlen : Int) - 1) bs (be - 1) (32 - p.2)
            pure (o, p.2 - (be - bs))
          else pure p : Res (List UInt × Int))
        cyclicLoop input input.length bs be (be - bs) (32 - bs) (n + 1) ((K % input.length : Nat) : Int) ((jlen : Int) - 1) p.2 p.1) := by
    unfold getNtupleCyclic
    simp only [hbeI, hbsI, hi0, hiu, if_neg (show ¬ input.length = 0 by omega)]
  rw [unf]
  have hj0 : (jlen : Int) - 1 = (jlen : Int) - 1 - (0 : Nat) := by omega
  have hK0 : K = K - 0 := by omega
  have hn0 : (n : Int) = (n : Int) - 32 * (0 : Nat) := by omega
  by_cases h2a : (n : Int) = 32 - bs
  · -- Rule 2a
    have hbe' : be = 32 := by omega
    have hKO : K = O := by omega
    obtain ⟨out, h1, h2⟩ := addWindow_ok input hlen (offset + n) jlen (a := bs) (b := 31) (o := bs) (L := K) (J := 0) hZ
      (by omega) (by omega) (by omega) (by omega) (by omega) (by omega) (by omega)
    have h1' : addWindow input (List.replicate jlen 0) ((K % input.length : Nat) : Int) ((jlen : Int) - 1) bs 31 (32 - (32 - bs)) = .ok out := by
      rw [← h1]; congr 1 <;> omega
    rw [if_pos h2a, h1']
    simp only [Res.bind_ok, Res.pure_eq]
    rw [if_neg (by omega)]
    simp only [Res.bind_ok]
    refine ⟨fun _ => ⟨out, ?_, ?_⟩, ?_⟩
    · rw [cyclicLoop, if_neg (by omega)]
    · have : n = 0 + (31 - bs + 1) := by omega
      rw [this]; rw [this] at h2 ; simpa using h2
    · intro hab; unfold CyclicAborts at hab; omega
  · rw [if_neg h2a]
    simp only [Res.bind_ok, Res.pure_eq]
    by_cases h1a : (n : Int) = be - bs
    · -- Rule 1a
      obtain ⟨out, h1, h2⟩ := setWindow_ok input hlen (offset + n) jlen (a := bs) (b := be - 1) (o := 32 - n) (L := K) (J := 0) hZ
        (by omega) (by omega) (by omega) (by omega) (by omega) (by omega) (by omega)
      have h1' : setWindow input (List.replicate jlen 0) ((K % input.length : Nat) : Int) ((jlen : Int) - 1) bs (be - 1) (32 - n) = .ok out := by
        rw [← h1]; congr 1 <;> omega
      rw [if_pos h1a, h1']
      simp only [Res.bind_ok, Res.pure_eq]
      refine ⟨fun _ => ⟨out, ?_, ?_⟩, ?_⟩
      · rw [cyclicLoop, if_neg (by omega)]
      · have : n = 0 + (be - 1 - bs + 1) := by omega
        rw [this]; rw [this] at h2 ; simpa using h2
      · intro hab; unfold CyclicAborts at hab; omega
    · rw [if_neg h1a]
      simp only [Res.bind_ok]
      by_cases hfull : be = 32
      · have hl := loop_full input hlen (offset + n) jlen (O := O) (K := K) (bs := bs) (n := n) hbs31 hOK (by omega) (by omega) hfit (n + 1) 0
          (List.replicate jlen 0) (by omega) (by omega) hZ
        obtain ⟨out, h1, h2⟩ := hl
        refine ⟨fun _ => ⟨out, ?_, h2⟩, ?_⟩
        · rw [← h1]; congr 1 <;> omega
        · intro hab; unfold CyclicAborts at hab; omega
      · by_cases hst : bs = 0
        · have hl := loop_start input hlen (offset + n) jlen (O := O) (K := K) (be := be) (n := n) (by omega) hbe0 hOK (by omega) (by omega) hfit (n + 1) 0
            (List.replicate jlen 0) (by omega) (by omega) hZ
          obtain ⟨out, h1, h2⟩ := hl
          refine ⟨fun _ => ⟨out, ?_, h2⟩, ?_⟩
          · rw [← h1]; congr 1 <;> omega
          · intro hab; unfold CyclicAborts at hab; omega
        · have hl := loop_inner input hlen (offset + n) jlen (O := O) (K := K) (bs := bs) (be := be) (n := n) (by omega) hbe0 hbs31 (by omega) (by omega) (by omega) (by omega) hfit (n + 1) 0
            (List.replicate jlen 0) (by omega) (by omega) hZ
          have e : cyclicLoop input input.length bs be (be - bs) (32 - bs) (n + 1) ((K - 0) % input.length : Nat)
              ((jlen : Int) - 1 - (0 : Nat)) ((n : Int) - 32 * (0 : Nat)) (List.replicate jlen 0)
              = cyclicLoop input input.length bs be (be - bs) (32 - bs) (n + 1) ((K % input.length : Nat) : Int) ((jlen : Int) - 1) n (List.replicate jlen 0) := by
            congr 1 <;> omega
          rw [e] at hl
          unfold endResult at hl
          refine ⟨fun hab => ?_, fun hab => ?_⟩
          · unfold CyclicAborts at hab
            rw [if_pos (by omega)] at hl
            exact hl
          · unfold CyclicAborts at hab
            rw [if_neg (by omega)] at hl
            exact hl

theorem getNtupleCyclic_spec (input : List UInt) (jlen n offset : Nat) (hlen : 0 < input.length)
    (hn : 0 < n) (hfit : n ≤ 32 * jlen) (hsmall : offset + n < 2 ^ 32)
    (hna : ¬ CyclicAborts n offset) :
    ∃ out, getNtupleCyclic input input.length jlen n offset = .ok out ∧ out.length = jlen ∧
      ∀ t, rightBit out t = (decide (t < n) && msbStream input (offset + n - 1 - t)) := by
  obtain ⟨out, h1, h2⟩ := (getNtupleCyclic_raw input jlen n offset hlen hn hfit hsmall).1 hna
  exact ⟨out, h1, h2.1, fun t => h2.rightBit hfit t⟩

end Dh
