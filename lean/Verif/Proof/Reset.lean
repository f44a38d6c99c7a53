import Verif.Model.UintRand
set_option linter.unusedSimpArgs false
namespace Dh

/-- Two outcomes of the same kind with related values. -/
def Res.Rel {α β : Type} (P : α → β → Prop) : Res α → Res β → Prop
  | .ok a, .ok b => P a b
  | .exit, .exit => True
  | .ub, .ub => True
  | .loop, .loop => True
  | _, _ => False

theorem Res.Rel.bind {α β γ δ : Type} {P : α → β → Prop} {Q : γ → δ → Prop} {x : Res α} {y : Res β}
    {f : α → Res γ} {g : β → Res δ} (h : Res.Rel P x y) (hf : ∀ a b, P a b → Res.Rel Q (f a) (g b)) :
    Res.Rel Q (x >>= f) (y >>= g) := by
  cases x <;> cases y <;> simp [Res.Rel] at h
  · exact hf _ _ h
  all_goals trivial

theorem Res.Rel.refl {α : Type} (x : Res α) : Res.Rel Eq x x := by
  cases x <;> simp [Res.Rel]

section
variable (src src' : Src)

/-- Same statics, and from here on the generators agree. -/
def URSim (s s' : URState) : Prop :=
  s.b0 = s'.b0 ∧ s.b1 = s'.b1 ∧ s.bleft = s'.bleft ∧ ∀ k, src (s.pos + k) = src' (s'.pos + k)

theorem URSim.next {p p' : Nat} (h : ∀ k, src (p + k) = src' (p' + k)) :
    src p = src' p' ∧ ∀ k, src (p + 1 + k) = src' (p' + 1 + k) := by
  refine ⟨by simpa using h 0, fun k => ?_⟩
  have := h (1 + k)
  rw [← Nat.add_assoc, ← Nat.add_assoc] at this
  exact this

theorem urLoop_sim (r : Nat) : ∀ (fuel : Nat) (s s' : URState), URSim src src' s s' →
    Res.Rel (URSim src src') (urLoop r src fuel s) (urLoop r src' fuel s') := by
  intro fuel
  induction fuel with
  | zero =>
    intro s s' h
    rw [urLoop, urLoop, ← h.2.2.1]
    split
    · trivial
    · exact h
  | succ fuel ih =>
    intro s s' h
    obtain ⟨h0, h1, h2, h3⟩ := h
    obtain ⟨n0, n1⟩ := URSim.next src src' h3
    rw [urLoop, urLoop, ← h2]
    split
    · simp only [← n0, ← h1]
      apply Res.Rel.bind (Res.Rel.refl _)
      rintro a _ rfl
      exact ih _ _ ⟨rfl, rfl, rfl, n1⟩
    · exact ⟨h0, h1, h2, h3⟩

def USim {α : Type} (a : α × URState) (b : α × URState) : Prop := a.1 = b.1 ∧ URSim src src' a.2 b.2

theorem getUintRand_sim (r : Nat) (s s' : URState) (h : URSim src src' s s') :
    Res.Rel (USim src src') (getUintRand r src s) (getUintRand r src' s') := by
  unfold getUintRand
  obtain ⟨h0, h1, h2, h3⟩ := h
  obtain ⟨n0, n1⟩ := URSim.next src src' h3
  refine Res.Rel.bind (P := URSim src src') ?_ ?_
  · apply urLoop_sim
    simp only [h2]
    split
    · exact ⟨rfl, n0, rfl, n1⟩
    · exact ⟨h0, h1, h2, h3⟩
  · rintro a b ⟨a0, a1, a2, a3⟩
    obtain ⟨m0, m1⟩ := URSim.next src src' a3
    simp only [← a1, ← a2, ← m0]
    apply Res.Rel.bind (Res.Rel.refl _)
    rintro c _ rfl
    split
    · exact ⟨rfl, rfl, rfl, rfl, m1⟩
    · apply Res.Rel.bind (Res.Rel.refl _)
      rintro c _ rfl
      exact ⟨rfl, rfl, rfl, rfl, m1⟩

/-- The same relation for the statics of `get_rand_bits`. -/
def RBSim (s s' : RBState) : Prop :=
  URSim src src' s.ur s'.ur ∧ s.buf = s'.buf ∧ s.output = s'.output ∧ s.brindex = s'.brindex ∧
    s.iclear = s'.iclear ∧ s.bitindex = s'.bitindex

theorem rbFill_sim (r : Nat) : ∀ (i : Nat) (s s' : RBState), RBSim src src' s s' →
    Res.Rel (RBSim src src') (rbFill r src i s) (rbFill r src' i s') := by
  intro i
  induction i with
  | zero => intro s s' h; exact h
  | succ i ih =>
    intro s s' h
    rw [rbFill, rbFill]
    apply Res.Rel.bind (getUintRand_sim src src' r _ _ h.1)
    rintro ⟨x, u⟩ ⟨_, u'⟩ ⟨hx, hu⟩
    simp only at hx
    subst hx
    simp only [← h.2.1]
    apply Res.Rel.bind (Res.Rel.refl _)
    rintro c _ rfl
    exact ih _ _ ⟨hu, rfl, h.2.2⟩

theorem rbBackfill_sim (r : Nat) : ∀ (i : Nat) (s s' : RBState), RBSim src src' s s' →
    Res.Rel (RBSim src src') (rbBackfill r src i s) (rbBackfill r src' i s') := by
  intro i
  induction i with
  | zero =>
    intro s s' h
    rw [rbBackfill, rbBackfill, ← h.2.2.2.2.1, ← h.2.2.2.1]
    split
    · trivial
    · exact h
  | succ i ih =>
    intro s s' h
    rw [rbBackfill, rbBackfill, ← h.2.2.2.2.1, ← h.2.2.2.1]
    split
    · apply Res.Rel.bind (getUintRand_sim src src' r _ _ h.1)
      rintro ⟨x, u⟩ ⟨_, u'⟩ ⟨hx, hu⟩
      simp only at hx
      subst hx
      simp only [← h.2.1]
      apply Res.Rel.bind (Res.Rel.refl _)
      rintro c _ rfl
      exact ih _ _ ⟨hu, rfl, h.2.2.1, rfl, rfl, h.2.2.2.2.2⟩
    · exact h

theorem getRandBits_sim (r rsize n : Nat) (s s' : RBState) (h : RBSim src src' s s') :
    Res.Rel (fun a b => a.1 = b.1 ∧ RBSim src src' a.2 b.2)
      (getRandBits r src rsize n s) (getRandBits r src' rsize n s') := by
  unfold getRandBits
  simp only
  split
  · exact ⟨rfl, h⟩
  split
  · exact ⟨rfl, h⟩
  split
  · exact ⟨rfl, h⟩
  refine Res.Rel.bind (P := RBSim src src') ?_ ?_
  · rw [← h.2.2.2.1]
    split
    · apply Res.Rel.bind (rbFill_sim src src' r 6 _ _ h)
      intro a b hab
      exact ⟨hab.1, hab.2.1, hab.2.2.1, rfl, rfl, rfl⟩
    · exact h
  · intro a b hab
    obtain ⟨hu, h1, h2, h3, h4, h5⟩ := hab
    simp only [← h1, ← h3, ← h4, ← h5]
    apply Res.Rel.bind (Res.Rel.refl _)
    rintro c _ rfl
    refine Res.Rel.bind (P := RBSim src src') (rbBackfill_sim src src' r 6 _ _ ?_) ?_
    · exact ⟨hu, rfl, rfl, rfl, rfl, rfl⟩
    intro d e hde
    split
    · trivial
    · exact ⟨by simp only [hde.2.2.1], hde⟩

theorem runReqs_sim (r : Nat) : ∀ (qs : List Req) (s s' : RBState), RBSim src src' s s' →
    Res.Rel (fun a b => a.1 = b.1 ∧ RBSim src src' a.2 b.2) (runReqs r src qs s) (runReqs r src' qs s') := by
  intro qs
  induction qs with
  | nil => intro s s' h; exact ⟨rfl, h⟩
  | cons q qs ih =>
    intro s s' h
    cases q with
    | uint =>
      rw [runReqs, runReqs]
      apply Res.Rel.bind (getUintRand_sim src src' r _ _ h.1)
      rintro ⟨x, u⟩ ⟨_, u'⟩ ⟨hx, hu⟩
      simp only at hx
      subst hx
      refine Res.Rel.bind (ih { s with ur := u } { s' with ur := u' } ⟨hu, h.2⟩) ?_
      rintro ⟨y, u⟩ ⟨_, u'⟩ ⟨hy, hu⟩
      simp only at hy
      subst hy
      exact ⟨rfl, hu⟩
    | bits rsize n =>
      rw [runReqs, runReqs]
      apply Res.Rel.bind (getRandBits_sim src src' r rsize n _ _ h)
      rintro ⟨x, u⟩ ⟨_, u'⟩ ⟨hx, hu⟩
      simp only at hx
      subst hx
      apply Res.Rel.bind (ih _ _ hu)
      rintro ⟨y, u⟩ ⟨_, u'⟩ ⟨hy, hu⟩
      simp only at hy
      subst hy
      exact ⟨rfl, hu⟩
end
end Dh
