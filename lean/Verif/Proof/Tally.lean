import Verif.Model.Tally
/-
What repeated counting leaves in an array.
-/
set_option linter.unusedSimpArgs false
namespace Dh

/-- `f` is `f0` after counting each index of `l` once. -/
structure Tallied (f0 : List Nat) (l : List Nat) (f : List Nat) : Prop where
  len : f.length = f0.length
  get : ∀ v, f.getD v 0 = f0.getD v 0 + l.count v
  sum : f.sum = f0.sum + l.length

theorem Tallied.nil (f : List Nat) : Tallied f [] f := ⟨rfl, fun v => by simp, by simp⟩

theorem sum_set : ∀ (f : List Nat) (i x : Nat), i < f.length → (f.set i x).sum + f.getD i 0 = f.sum + x := by
  intro f
  induction f with
  | nil => intro i x h; simp at h
  | cons a f ih =>
    intro i x h
    cases i with
    | zero => simp; omega
    | succ i =>
      have := ih i x (by simpa using h)
      simp only [List.set_cons_succ, List.sum_cons, List.getD_cons_succ]
      omega

theorem bump_ok {f : List Nat} {i : Nat} (h : i < f.length) : bump f i = .ok (f.set i (f.getD i 0 + 1)) := by
  have hg : f.getD i 0 = f[i] := by simp [List.getD, h]
  rw [bump, rd_ok h, Res.bind_ok, wr, if_pos h, hg]

theorem getD_set {α : Type} (f : List α) (i : Nat) (x d : α) (h : i < f.length) (v : Nat) :
    (f.set i x).getD v d = if v = i then x else f.getD v d := by
  simp only [List.getD, List.getElem?_set]
  by_cases hv : v = i
  · subst hv; simp [h]
  · rw [if_neg (fun h' => hv h'.symm), if_neg hv]

theorem Tallied.bump {f0 l f : List Nat} (t : Tallied f0 l f) {i : Nat} (h : i < f0.length) :
    ∃ f', bump f i = .ok f' ∧ Tallied f0 (l ++ [i]) f' := by
  have hi : i < f.length := by rw [t.len]; exact h
  refine ⟨_, bump_ok hi, ?_, ?_, ?_⟩
  · rw [List.length_set, t.len]
  · intro v
    rw [getD_set f i _ 0 hi, List.count_append, List.count_singleton]
    by_cases hv : v = i
    · subst hv; rw [if_pos rfl, t.get]; simp; omega
    · rw [if_neg hv, t.get]
      have : (i == v) = false := by simp; omega
      rw [this]; simp
  · have := sum_set f i (f.getD i 0 + 1) hi
    have h2 := t.sum
    rw [List.length_append, List.length_singleton]
    omega

theorem bump_ub {f : List Nat} {i : Nat} (h : f.length ≤ i) : Dh.bump f i = .ub := by
  rw [Dh.bump, rd_ub h]; rfl

end Dh
