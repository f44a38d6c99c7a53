import Verif.Model.FixedPoint
import Verif.Props.StdTest
import Mathlib.Tactic.Linarith
import Mathlib.Tactic.IntervalCases
/-
C127: the printed p-value and the assessment beside it.
-/
namespace Dh

namespace Spec

/-- The number that digits stand for. -/
def readDigits (cs : List Char) : Nat := cs.foldl (fun a c => 10 * a + (c.toNat - 48)) 0

/-- The number that a text `digits.digits` stands for. -/
def readDecimal (cs : List Char) : ℚ :=
  let frac := (cs.dropWhile (· ≠ '.')).tail
  readDigits (cs.takeWhile (· ≠ '.')) + readDigits frac / 10 ^ frac.length

/-- A digit. -/
def IsDigit (c : Char) : Prop := c ∈ ['0', '1', '2', '3', '4', '5', '6', '7', '8', '9']

end Spec

open Spec

theorem round_near (q : ℚ) : |(roundHalfEven q : ℚ) - q| ≤ 1 / 2 := by
  have h1 := Int.floor_le q
  have h2 := Int.lt_floor_add_one q
  rw [abs_le, roundHalfEven]
  split
  · constructor <;> linarith
  · split
    · push_cast; constructor <;> linarith
    · split
      · constructor <;> linarith
      · push_cast; constructor <;> linarith

theorem round_mono {q q' : ℚ} (h : q ≤ q') : roundHalfEven q ≤ roundHalfEven q' := by
  by_contra hc
  have h1 : roundHalfEven q' + 1 ≤ roundHalfEven q := by omega
  have h2 : ((roundHalfEven q' : ℤ) : ℚ) + 1 ≤ roundHalfEven q := by exact_mod_cast h1
  have h3 := (abs_le.1 (round_near q)).2
  have h4 := (abs_le.1 (round_near q')).1
  have h5 : q = q' := by linarith
  rw [h5] at h1
  omega

theorem round_int (z : ℤ) : roundHalfEven z = z := by
  rw [roundHalfEven]
  simp

theorem readDigits_append (a b : List Char) : readDigits (a ++ b) = readDigits a * 10 ^ b.length + readDigits b := by
  have : ∀ (b : List Char) (x : Nat), b.foldl (fun a c => 10 * a + (c.toNat - 48)) x = x * 10 ^ b.length + readDigits b := by
    intro b
    induction b with
    | nil => intro x; simp [readDigits]
    | cons c b ih =>
      intro x
      have e : readDigits (c :: b) = (10 * 0 + (c.toNat - 48)) * 10 ^ b.length + readDigits b := ih _
      rw [List.foldl_cons, ih, e, List.length_cons, pow_succ]
      ring
  rw [readDigits, List.foldl_append, this]
  rfl

theorem digitChar_facts : ∀ d < 10, IsDigit (Nat.digitChar d) ∧ (Nat.digitChar d).toNat - 48 = d ∧ Nat.digitChar d ≠ '.' ∧ Nat.digitChar d ≠ ' ' := by
  unfold IsDigit
  decide

theorem decDigits_spec : ∀ k n, (decDigits k n).length = k ∧ readDigits (decDigits k n) = n % 10 ^ k ∧ ∀ c ∈ decDigits k n, IsDigit c
  | 0, n => by simp [decDigits, readDigits, Nat.mod_one]
  | k + 1, n => by
    obtain ⟨h1, h2, h3⟩ := decDigits_spec k (n / 10)
    obtain ⟨d1, d2, -, -⟩ := digitChar_facts (n % 10) (Nat.mod_lt _ (by norm_num))
    rw [decDigits]
    refine ⟨by simp [h1], ?_, ?_⟩
    · rw [readDigits_append, h2]
      have e : readDigits [Nat.digitChar (n % 10)] = n % 10 := by simp [readDigits, d2]
      rw [e, List.length_singleton, pow_one, pow_succ, Nat.mul_comm (10 ^ k) 10, Nat.mod_mul]
      ring
    · intro c hc
      rcases List.mem_append.1 hc with hc | hc
      · exact h3 c hc
      · rw [List.mem_singleton.1 hc]; exact d1

/-- What is printed for a p-value: the number of units of `10^-8`, with a digit before the point and eight after it. -/
theorem printP_eq (p : ℚ) (h0 : 0 ≤ p) (h1 : p ≤ 1) : ∃ n : Nat, (n : ℤ) = roundHalfEven (p * 10 ^ 8) ∧ n ≤ 10 ^ 8 ∧
    printP p = Nat.digitChar (n / 10 ^ 8) :: '.' :: decDigits 8 n := by
  have hr0 : 0 ≤ roundHalfEven (p * 10 ^ 8) := by
    have := round_mono (show ((0 : ℤ) : ℚ) ≤ p * 10 ^ 8 by push_cast; positivity)
    rwa [round_int] at this
  have hr1 : roundHalfEven (p * 10 ^ 8) ≤ 10 ^ 8 := by
    have := round_mono (show p * 10 ^ 8 ≤ (((10 ^ 8 : ℤ)) : ℚ) by push_cast; linarith)
    rwa [round_int] at this
  refine ⟨(roundHalfEven (p * 10 ^ 8)).toNat, Int.toNat_of_nonneg hr0, by omega, ?_⟩
  have hn : (roundHalfEven (p * 10 ^ 8)).toNat ≤ 10 ^ 8 := by omega
  rw [printP, fmtFixed, abs_of_nonneg h0]
  rw [if_neg (not_lt.2 h0), List.nil_append]
  generalize (roundHalfEven (p * 10 ^ 8)).toNat = n at hn
  have hd : Nat.toDigits 10 (n / 10 ^ 8) = [Nat.digitChar (n / 10 ^ 8)] := Nat.toDigits_of_lt_base (by omega)
  rw [hd, fmtRight]
  have hl : ([Nat.digitChar (n / 10 ^ 8)] ++ '.' :: decDigits 8 n).length = 10 := by simp [(decDigits_spec 8 n).1]
  rw [hl]
  rfl

theorem readDecimal_print (n : Nat) (hn : n ≤ 10 ^ 8) : readDecimal (Nat.digitChar (n / 10 ^ 8) :: '.' :: decDigits 8 n) = n / 10 ^ 8 := by
  have hd : n / 10 ^ 8 < 10 := by omega
  obtain ⟨-, d2, d3, -⟩ := digitChar_facts _ hd
  obtain ⟨k1, k2, -⟩ := decDigits_spec 8 n
  rw [readDecimal]
  rw [List.dropWhile_cons_of_pos (by simp), List.takeWhile_cons_of_pos (by simp), List.dropWhile_cons_of_neg (by simp),
    List.takeWhile_cons_of_neg (by simp)]
  simp only [List.tail_cons, k1, k2]
  have e : readDigits [Nat.digitChar (n / 10 ^ 8)] = n / 10 ^ 8 := by simp only [readDigits, List.foldl_cons, List.foldl_nil, d2]; omega
  rw [e, eq_div_iff (by positivity), add_mul, div_mul_cancel₀ _ (by positivity)]
  have := Nat.div_add_mod n (10 ^ 8)
  have h : ((n / 10 ^ 8 * 10 ^ 8 + n % 10 ^ 8 : Nat) : ℚ) = (n : Nat) := by exact_mod_cast (by omega : n / 10 ^ 8 * 10 ^ 8 + n % 10 ^ 8 = n)
  push_cast at h ⊢
  exact h

/-- C127: a p-value is printed with ten characters, a digit, the point and eight digits, which stand for a number that is at most half a unit of the last
digit away. -/
theorem C127_text (p : ℚ) (h0 : 0 ≤ p) (h1 : p ≤ 1) :
    (∃ d ds, printP p = d :: '.' :: ds ∧ ds.length = 8 ∧ IsDigit d ∧ ∀ c ∈ ds, IsDigit c) ∧ |readDecimal (printP p) - p| ≤ 1 / (2 * 10 ^ 8) := by
  obtain ⟨n, hn, hle, he⟩ := printP_eq p h0 h1
  have h10 : n / 10 ^ 8 < 10 := by omega
  refine ⟨⟨_, _, he, (decDigits_spec 8 n).1, (digitChar_facts _ h10).1, (decDigits_spec 8 n).2.2⟩, ?_⟩
  rw [he, readDecimal_print n hle]
  have := round_near (p * 10 ^ 8)
  rw [← hn] at this
  have e : (n : ℚ) / 10 ^ 8 - p = (((n : ℤ) : ℚ) - p * 10 ^ 8) / 10 ^ 8 := by push_cast; field_simp
  rw [e, abs_div, abs_of_pos (by positivity : (0 : ℚ) < 10 ^ 8), div_le_iff₀ (by positivity)]
  refine le_trans this ?_
  norm_num

/-- C127: printing keeps the order: a smaller p-value is never printed as a larger number. -/
theorem C127_mono (p q : ℚ) (h0 : 0 ≤ p) (hpq : p ≤ q) (h1 : q ≤ 1) : readDecimal (printP p) ≤ readDecimal (printP q) := by
  obtain ⟨n, hn, hle, he⟩ := printP_eq p h0 (hpq.trans h1)
  obtain ⟨m, hm, hle', he'⟩ := printP_eq q (h0.trans hpq) h1
  rw [he, he', readDecimal_print n hle, readDecimal_print m hle']
  have h : n ≤ m := by
    have := round_mono (show p * 10 ^ 8 ≤ q * 10 ^ 8 by linarith)
    omega
  have : (n : ℚ) ≤ m := by exact_mod_cast h
  exact div_le_div_of_nonneg_right this (by positivity)

/-- A p-value between two that are printed alike is printed like them. -/
theorem print_between (p x q : ℚ) (h0 : 0 ≤ p) (hpx : p ≤ x) (hxq : x ≤ q) (h1 : q ≤ 1) (h : printP p = printP q) : printP p = printP x := by
  obtain ⟨n, hn, hle, he⟩ := printP_eq p h0 (hpx.trans (hxq.trans h1))
  obtain ⟨m, hm, hle', he'⟩ := printP_eq q (h0.trans (hpx.trans hxq)) h1
  obtain ⟨k, hk, hlek, hek⟩ := printP_eq x (h0.trans hpx) (hxq.trans h1)
  have e1 := readDecimal_print n hle
  have e2 := readDecimal_print m hle'
  rw [← he, h, he', e2] at e1
  have h8 : ((10 : ℚ) ^ 8) ≠ 0 := by positivity
  have e3 : (m : ℚ) = n := by
    have := congrArg (· * (10 : ℚ) ^ 8) e1
    simpa [div_mul_cancel₀ _ h8] using this
  have e4 : m = n := by exact_mod_cast e3
  have r1 := round_mono (show p * 10 ^ 8 ≤ x * 10 ^ 8 by linarith)
  have r2 := round_mono (show x * 10 ^ 8 ≤ q * 10 ^ 8 by linarith)
  have : k = n := by omega
  rw [he, hek, this]

/-- C127: two p-values that are printed alike are assessed alike, unless they are printed like one of the four limits. -/
theorem C127_verdict (Xfail Xweak p q : ℚ) (hp0 : 0 ≤ p) (hp1 : p ≤ 1) (hq0 : 0 ≤ q) (hq1 : q ≤ 1) (h : printP p = printP q)
    (hX : ∀ x ∈ [Xfail, 1 - Xfail, Xweak, 1 - Xweak], printP p ≠ printP x) : assess Xfail Xweak p = assess Xfail Xweak q := by
  have side : ∀ p q : ℚ, 0 ≤ p → q ≤ 1 → printP p = printP q → (∀ x ∈ [Xfail, 1 - Xfail, Xweak, 1 - Xweak], printP p ≠ printP x) →
      ∀ x ∈ [Xfail, 1 - Xfail, Xweak, 1 - Xweak], ¬ (p ≤ x ∧ x ≤ q) := fun p q a b c d x hx e => d x hx (print_between p x q a e.1 e.2 b c)
  have key : ∀ x ∈ [Xfail, 1 - Xfail, Xweak, 1 - Xweak], (p < x ↔ q < x) ∧ (x < p ↔ x < q) := by
    intro x hx
    have s1 := side p q hp0 hq1 h hX x hx
    have s2 := side q p hq0 hp1 h.symm (by rw [← h]; exact hX) x hx
    rw [not_and_or, not_le, not_le] at s1 s2
    constructor
    · constructor
      · intro hlt
        rcases s1 with s1 | s1
        · linarith
        · exact s1
      · intro hlt
        rcases s2 with s2 | s2
        · linarith
        · exact s2
    · constructor
      · intro hlt
        rcases s2 with s2 | s2
        · exact s2
        · linarith
      · intro hlt
        rcases s1 with s1 | s1
        · exact s1
        · linarith
  have k1 := key Xfail (by simp)
  have k2 := key (1 - Xfail) (by simp)
  have k3 := key Xweak (by simp)
  have k4 := key (1 - Xweak) (by simp)
  unfold assess
  simp only [gt_iff_lt, k1.1, k2.2, k3.1, k4.2]

/-- C127: so who reads the printed number finds the assessment that the program printed, unless the text is that of one of the four limits. -/
theorem C127_reader (Xfail Xweak p : ℚ) (hp0 : 0 ≤ p) (hp1 : p ≤ 1) (hX : ∀ x ∈ [Xfail, 1 - Xfail, Xweak, 1 - Xweak], printP p ≠ printP x) :
    assess Xfail Xweak (readDecimal (printP p)) = assess Xfail Xweak p := by
  obtain ⟨n, hn, hle, he⟩ := printP_eq p hp0 hp1
  have hr : readDecimal (printP p) = n / 10 ^ 8 := by rw [he, readDecimal_print n hle]
  have h0 : 0 ≤ readDecimal (printP p) := by rw [hr]; positivity
  have h1 : readDecimal (printP p) ≤ 1 := by
    rw [hr, div_le_one (by positivity)]
    exact_mod_cast hle
  have e : printP (readDecimal (printP p)) = printP p := by
    obtain ⟨m, hm, hle', he'⟩ := printP_eq _ h0 h1
    rw [hr, div_mul_cancel₀ _ (by positivity), show ((n : Nat) : ℚ) = ((n : ℤ) : ℚ) by push_cast; rfl, round_int] at hm
    have : m = n := by omega
    rw [he', this, he]
  exact C127_verdict Xfail Xweak _ p h0 h1 hp0 hp1 e (by rw [e]; exact hX)

/-- C127, the exceptions are real: with the default limits 0.000001 and 0.005 each of their four texts is printed for p-values with different
assessments. -/
theorem C127_limits :
    printP (1 / 10 ^ 6) = "0.00000100".toList ∧ printP (9999 / 10 ^ 10) = "0.00000100".toList ∧
      assess (1 / 10 ^ 6) (5 / 1000) (1 / 10 ^ 6) = .weak ∧ assess (1 / 10 ^ 6) (5 / 1000) (9999 / 10 ^ 10) = .failed ∧
    printP (5 / 1000) = "0.00500000".toList ∧ printP (4999999999 / 10 ^ 12) = "0.00500000".toList ∧
      assess (1 / 10 ^ 6) (5 / 1000) (5 / 1000) = .passed ∧ assess (1 / 10 ^ 6) (5 / 1000) (4999999999 / 10 ^ 12) = .weak ∧
    printP (1 - 5 / 1000) = "0.99500000".toList ∧ printP (1 - 4999999999 / 10 ^ 12) = "0.99500000".toList ∧
      assess (1 / 10 ^ 6) (5 / 1000) (1 - 5 / 1000) = .passed ∧ assess (1 / 10 ^ 6) (5 / 1000) (1 - 4999999999 / 10 ^ 12) = .weak ∧
    printP (1 - 1 / 10 ^ 6) = "0.99999900".toList ∧ printP (1 - 9999 / 10 ^ 10) = "0.99999900".toList ∧
      assess (1 / 10 ^ 6) (5 / 1000) (1 - 1 / 10 ^ 6) = .weak ∧ assess (1 / 10 ^ 6) (5 / 1000) (1 - 9999 / 10 ^ 10) = .failed := by
  decide +kernel

-- Half a unit is rounded to an even digit.
example : printP (5 / 10 ^ 9) = "0.00000000".toList ∧ printP (15 / 10 ^ 9) = "0.00000002".toList ∧ printP (999999999 / 10 ^ 9) = "1.00000000".toList ∧
    printP (-1) = "-1.00000000".toList := by
  decide +kernel

end Dh
