import Verif.Storyboard.Lemmas
/-
The fuel of the model: a constant amount always suffices, and more fuel changes nothing.
-/
namespace Verif.Storyboard

theorem foldlM_total {σ β : Type} {f : σ → β → Option σ} (l : List β)
    (h : ∀ s, ∀ c ∈ l, ∃ s', f s c = some s') : ∀ s, ∃ s', l.foldlM f s = some s' := by
  induction l with
  | nil => intro s; exact ⟨s, by simp⟩
  | cons a l ih =>
    intro s
    obtain ⟨s1, h1⟩ := h s a (by simp)
    obtain ⟨s2, h2⟩ := ih (fun s c hc => h s c (by simp [hc])) s1
    exact ⟨s2, by simp [List.foldlM_cons, h1, h2]⟩

theorem foldlM_mono {σ β : Type} {f g : σ → β → Option σ} (l : List β)
    (h : ∀ s c s', c ∈ l → f s c = some s' → g s c = some s') :
    ∀ s s', l.foldlM f s = some s' → l.foldlM g s = some s' := by
  induction l with
  | nil => intro s s' h; simpa using h
  | cons a l ih =>
    intro s s' hs
    simp only [List.foldlM_cons, bind, Option.bind_eq_some_iff] at hs ⊢
    obtain ⟨s1, h1, h2⟩ := hs
    exact ⟨s1, h s a s1 (by simp) h1, ih (fun s c s' hc => h s c s' (by simp [hc])) s1 s' h2⟩

theorem child_level {sh : Shape} (wf : sh.WF) {c e : Nat} (h : c ∈ sh.children e) :
    (sh.etype c).level = (sh.etype e).level + 1 := wf.level _ _ ((wf.tree _ _).1 h)

theorem resetE_total {sh : Shape} (wf : sh.WF) : ∀ (f e : Nat) (s : SB),
    8 ≤ f + (sh.etype e).level → ∃ s', resetE sh f e s = some s' := by
  intro f
  induction f with
  | zero => intro e s h; have := EType.level_le (sh.etype e); omega
  | succ f ih =>
    intro e s h
    obtain ⟨s1, h1⟩ := foldlM_total (f := fun s c => resetE sh f c s) (sh.children e)
      (fun s c hc => ih c s (by have := child_level wf hc; omega)) s
    exact ⟨_, by simp [resetE, h1]; rfl⟩

theorem endSelf_total {sh : Shape} (wf : sh.WF) (f e : Nat) (s : SB) (hf : 6 ≤ f) :
    ∃ s', endSelf sh f e s = some s' := by
  unfold endSelf
  split
  · split
    · split
      · exact ⟨_, rfl⟩
      · refine foldlM_total (f := fun s c => resetE sh f c s) (sh.children e)
          (fun s c hc => resetE_total wf f c s ?_) _
        have := child_level wf hc; have := EType.level_ge (sh.etype e); omega
    · exact ⟨_, rfl⟩
  · exact ⟨_, rfl⟩

theorem parent_level {sh : Shape} (wf : sh.WF) {p e : Nat} (h : sh.parent e = some p) :
    (sh.etype e).level = (sh.etype p).level + 1 := wf.level _ _ h

/-- Going up: no child is running. -/
theorem endE_total_up {sh : Shape} (wf : sh.WF) : ∀ (f e : Nat) (s : SB),
    (sh.etype e).level + 6 ≤ f → (∀ c ∈ sh.children e, s.st c ≠ .running) →
    ∃ s', endE sh f e s = some s' := by
  intro f
  induction f with
  | zero => intro e s h; omega
  | succ f ih =>
    intro e s h hc
    rw [endE]
    split
    · exact ⟨_, rfl⟩
    have h1 : (sh.children e).foldlM
        (fun s c => if s.st c = .running then endE sh f c s else some s) s = some s := by
      have : ∀ l : List Nat, (∀ c ∈ l, s.st c ≠ .running) → l.foldlM
        (fun s c => if s.st c = .running then endE sh f c s else some s) s = some s := by
        intro l
        induction l with
        | nil => intro _; rfl
        | cons a l ih2 =>
          intro hl
          simp only [List.foldlM_cons, bind]
          rw [if_neg (hl a (by simp))]
          exact ih2 (fun c hc => hl c (by simp [hc]))
      exact this _ hc
    simp only [bind, h1, Option.bind_some]
    split
    · exact ⟨_, rfl⟩
    have := EType.level_ge (sh.etype e)
    obtain ⟨s2, h2⟩ := endSelf_total wf f e s (by omega)
    simp only [h2, Option.bind_some]
    cases hp : sh.parent e with
    | none => exact ⟨_, rfl⟩
    | some p =>
      simp only
      split
      · next hh =>
        refine ih p s2 (by have := parent_level wf hp; omega) ?_
        intro c hcm hr
        have := hh.2.2
        simp only [allChildrenComplete, List.all_eq_true, decide_eq_true_eq] at this
        rw [this c hcm] at hr; simp at hr
      · exact ⟨_, rfl⟩

theorem propagateParent_total {sh : Shape} (wf : sh.WF) (f e : Nat) (s : SB) (hf : 13 ≤ f) :
    ∃ s', propagateParent sh f e s = some s' := by
  unfold propagateParent
  cases hp : sh.parent e with
  | none => exact ⟨_, rfl⟩
  | some p =>
    simp only
    split
    · next hh =>
      refine endE_total_up wf f p s (by have := EType.level_le (sh.etype p); omega) ?_
      intro c hcm hr
      have := hh.2.2
      simp only [allChildrenComplete, List.all_eq_true, decide_eq_true_eq] at this
      rw [this c hcm] at hr; simp at hr
    · exact ⟨_, rfl⟩

theorem endE_total {sh : Shape} (wf : sh.WF) : ∀ (f e : Nat) (s : SB),
    21 ≤ f + (sh.etype e).level → ∃ s', endE sh f e s = some s' := by
  intro f
  induction f with
  | zero => intro e s h; have := EType.level_le (sh.etype e); omega
  | succ f ih =>
    intro e s h
    rw [endE]
    split
    · exact ⟨_, rfl⟩
    obtain ⟨s1, h1⟩ := foldlM_total
      (f := fun (s : SB) c => if s.st c = .running then endE sh f c s else some s) (sh.children e)
      (fun s c hc => by
        split
        · exact ih c s (by have := child_level wf hc; omega)
        · exact ⟨_, rfl⟩) s
    simp only [bind, h1, Option.bind_some]
    split
    · exact ⟨_, rfl⟩
    have hl := EType.level_le (sh.etype e)
    obtain ⟨s2, h2⟩ := endSelf_total wf f e s1 (by omega)
    simp only [h2, Option.bind_some]
    have := propagateParent_total wf f e s2 (by omega)
    unfold propagateParent at this
    exact this

theorem stopE_total {sh : Shape} (wf : sh.WF) : ∀ (f e : Nat) (s : SB),
    21 ≤ f + (sh.etype e).level → ∃ s', stopE sh f e s = some s' := by
  intro f
  induction f with
  | zero => intro e s h; have := EType.level_le (sh.etype e); omega
  | succ f ih =>
    intro e s h
    rw [stopE]
    obtain ⟨s1, h1⟩ := foldlM_total (f := fun s c => stopE sh f c s) (sh.children e)
      (fun s c hc => ih c s (by have := child_level wf hc; omega)) s
    simp only [bind, h1, Option.bind_some]
    split
    · exact ⟨_, rfl⟩
    split
    · exact ⟨_, rfl⟩
    have hl := EType.level_le (sh.etype e)
    exact propagateParent_total wf f e _ (by omega)

theorem endE_total' {sh : Shape} (wf : sh.WF) (f e : Nat) (s : SB) (hf : 20 ≤ f) :
    ∃ s', endE sh f e s = some s' :=
  endE_total wf f e s (by have := EType.level_ge (sh.etype e); omega)

theorem stopE_total' {sh : Shape} (wf : sh.WF) (f e : Nat) (s : SB) (hf : 20 ≤ f) :
    ∃ s', stopE sh f e s = some s' :=
  stopE_total wf f e s (by have := EType.level_ge (sh.etype e); omega)

theorem actionStart_total {sh : Shape} (wf : sh.WF) (orc : Oracle) (f e : Nat) (s : SB)
    (hf : 20 ≤ f) : ∃ s', actionStart sh orc f e s = some s' := by
  unfold actionStart
  simp only
  split
  · exact ⟨_, rfl⟩
  · exact ⟨_, rfl⟩
  · exact endE_total' wf f e _ hf

theorem startOneAction_total {sh : Shape} (wf : sh.WF) (orc : Oracle) (f e : Nat) (s : SB)
    (hf : 20 ≤ f) : ∃ s', startOneAction sh orc f e s = some s' := by
  have : ∃ s', endConflicting sh f e s = some s' := by
    unfold endConflicting
    split
    · next obj _ =>
      obtain ⟨s1, h1⟩ : ∃ s', endConflictingInit sh f e obj s = some s' := by
        refine foldlM_total _ (fun s c _ => ?_) s
        split
        · exact endE_total' wf f c _ hf
        · exact ⟨_, rfl⟩
      obtain ⟨s2, h2⟩ : ∃ s', endConflictingEvents sh f e obj s1 = some s' := by
        refine foldlM_total _ (fun s c _ => ?_) s1
        refine foldlM_total _ (fun s c _ => ?_) s
        split
        · exact endE_total' wf f c _ hf
        · exact ⟨_, rfl⟩
      exact ⟨s2, by simp [h1, h2]⟩
    · exact ⟨_, rfl⟩
  obtain ⟨s1, h1⟩ := this
  obtain ⟨s2, h2⟩ := actionStart_total wf orc f e s1 hf
  exact ⟨s2, by simp [startOneAction, h1, h2]⟩

theorem eventStart_total {sh : Shape} (wf : sh.WF) (orc : Oracle) (f e : Nat) (s : SB)
    (he : sh.etype e = .event) (hf : 20 ≤ f) : ∃ s', eventStart sh orc f e s = some s' := by
  unfold eventStart
  cases hp : sh.parent e with
  | none => exact absurd hp (wf.eventParent e he)
  | some m =>
    simp only
    have : ∃ r, eventPriority sh f e m s = some r := by
      unfold eventPriority
      split
      · split
        · exact ⟨_, rfl⟩
        · obtain ⟨s1, h1⟩ := foldlM_total
            (f := fun (s : SB) e' => if e' ≠ e ∧ s.st e' = .running then endE sh f e' s else some s)
            (sh.children m) (fun s c _ => by
              split
              · exact endE_total' wf f c _ hf
              · exact ⟨_, rfl⟩) s
          exact ⟨_, by simp only [bind, h1, Option.bind_some]; rfl⟩
      all_goals exact ⟨_, rfl⟩
    obtain ⟨⟨go, s1⟩, h1⟩ := this
    simp only [bind, h1, Option.bind_some]
    split
    · exact ⟨_, rfl⟩
    split
    · exact ⟨_, rfl⟩
    split
    · exact endE_total' wf f e _ hf
    · exact foldlM_total _ (fun s c _ => startOneAction_total wf orc f c s hf) _

theorem startE_total {sh : Shape} (wf : sh.WF) (orc : Oracle) : ∀ (f e : Nat) (s : SB),
    28 ≤ f + (sh.etype e).level → ∃ s', startE sh orc f e s = some s' := by
  intro f
  induction f with
  | zero => intro e s h; have := EType.level_le (sh.etype e); omega
  | succ f ih =>
    intro e s h
    have hl := EType.level_le (sh.etype e)
    rw [startE]
    split
    · exact actionStart_total wf orc f e s (by omega)
    · next he => exact eventStart_total wf orc f e s he (by omega)
    · simp only
      split
      · exact foldlM_total _ (fun s c hc => ih c s (by have := child_level wf hc; omega)) _
      · exact ⟨_, rfl⟩

theorem evalTriggers_total {sh : Shape} (wf : sh.WF) (orc : Oracle) : ∀ (f e : Nat) (s : SB),
    35 ≤ f + (sh.etype e).level → ∃ s', evalTriggers sh orc f e s = some s' := by
  intro f
  induction f with
  | zero => intro e s h; have := EType.level_le (sh.etype e); omega
  | succ f ih =>
    intro e s h
    have hl := EType.level_le (sh.etype e)
    have hl1 := EType.level_ge (sh.etype e)
    rw [evalTriggers]
    obtain ⟨s1, h1⟩ : ∃ s', evalStop sh orc f e s = some s' := by
      unfold evalStop
      split
      · simp only
        split
        · obtain ⟨t, ht⟩ := stopE_total' wf f e { s with clock := s.clock + 1 } (by omega)
          simp only [bind, ht, Option.bind_some]
          split
          · exact stopE_total' wf f e _ (by omega)
          · exact ⟨_, rfl⟩
        · exact ⟨_, rfl⟩
      · exact ⟨_, rfl⟩
    obtain ⟨s2, h2⟩ : ∃ s', evalStart sh orc f e s1 = some s' := by
      unfold evalStart
      split
      · split
        · exact startE_total wf orc f e _ (by omega)
        · simp only
          split
          · exact startE_total wf orc f e _ (by omega)
          · exact ⟨_, rfl⟩
      · exact ⟨_, rfl⟩
    simp only [bind, h1, h2, Option.bind_some]
    split
    · exact foldlM_total _ (fun s c hc => ih c s (by have := child_level wf hc; omega)) _
    · exact ⟨_, rfl⟩

theorem actionStep_total {sh : Shape} (wf : sh.WF) (orc : Oracle) (f a : Nat) (s : SB)
    (hf : 20 ≤ f) : ∃ s', actionStep sh orc f a s = some s' := by
  unfold actionStep
  split
  · simp only
    split
    · exact ⟨_, rfl⟩
    · exact endE_total' wf f a _ hf
    · exact stopE_total' wf f a _ hf
  · exact ⟨_, rfl⟩

theorem stepE_total {sh : Shape} (wf : sh.WF) (orc : Oracle) : ∀ (f e : Nat) (s : SB),
    28 ≤ f + (sh.etype e).level → ∃ s', stepE sh orc f e s = some s' := by
  intro f
  induction f with
  | zero => intro e s h; have := EType.level_le (sh.etype e); omega
  | succ f ih =>
    intro e s h
    have hl := EType.level_le (sh.etype e)
    rw [stepE]
    split
    · exact actionStep_total wf orc f e s (by omega)
    · exact foldlM_total _ (fun s c _ => actionStep_total wf orc f c s (by omega)) _
    · split
      · exact foldlM_total _ (fun s c hc => ih c s (by have := child_level wf hc; omega)) _
      · exact ⟨_, rfl⟩

/-! ### more fuel does not change a result -/

theorem resetE_mono {sh : Shape} : ∀ (f g e : Nat) (s s' : SB), f ≤ g →
    resetE sh f e s = some s' → resetE sh g e s = some s' := by
  intro f
  induction f with
  | zero => intro g e s s' _ h; simp [resetE] at h
  | succ f ih =>
    intro g e s s' hg h
    obtain ⟨g, rfl⟩ : ∃ k, g = k + 1 := ⟨g - 1, by omega⟩
    simp only [resetE, bind, Option.bind_eq_some_iff] at h ⊢
    obtain ⟨s1, h1, h2⟩ := h
    exact ⟨s1, foldlM_mono _ (fun s c s' _ => ih g c s s' (by omega)) s s1 h1, h2⟩

theorem endSelf_mono {sh : Shape} {f g e : Nat} {s s' : SB} (hg : f ≤ g)
    (h : endSelf sh f e s = some s') : endSelf sh g e s = some s' := by
  unfold endSelf at h ⊢
  split
  · next h1 =>
    rw [if_pos h1] at h
    split
    · next h2 =>
      rw [if_pos h2] at h
      split
      · next h3 => rw [if_pos h3] at h; exact h
      · next h3 =>
        rw [if_neg h3] at h
        exact foldlM_mono _ (fun s c s' _ => resetE_mono f g c s s' hg) _ _ h
    · next h2 => rw [if_neg h2] at h; exact h
  · next h1 => rw [if_neg h1] at h; exact h

theorem endE_mono {sh : Shape} : ∀ (f g e : Nat) (s s' : SB), f ≤ g →
    endE sh f e s = some s' → endE sh g e s = some s' := by
  intro f
  induction f with
  | zero => intro g e s s' _ h; simp [endE] at h
  | succ f ih =>
    intro g e s s' hg h
    obtain ⟨g, rfl⟩ : ∃ k, g = k + 1 := ⟨g - 1, by omega⟩
    rw [endE] at h ⊢
    split
    · next h1 => rw [if_pos h1] at h; exact h
    next h1 =>
    rw [if_neg h1] at h
    simp only [bind, Option.bind_eq_some_iff] at h ⊢
    obtain ⟨s1, h2, h3⟩ := h
    refine ⟨s1, foldlM_mono _ ?_ s s1 h2, ?_⟩
    · intro s c s' _ hh
      split
      · next h4 => rw [if_pos h4] at hh; exact ih g c s s' (by omega) hh
      · next h4 => rw [if_neg h4] at hh; exact hh
    split
    · next h4 => rw [if_pos h4] at h3; exact h3
    next h4 =>
    rw [if_neg h4] at h3
    simp only [Option.bind_eq_some_iff] at h3 ⊢
    obtain ⟨s2, h5, h6⟩ := h3
    refine ⟨s2, endSelf_mono (by omega) h5, ?_⟩
    cases hp : sh.parent e with
    | none => simp only [hp] at h6 ⊢; exact h6
    | some p =>
      simp only [hp] at h6 ⊢
      split
      · next h7 => rw [if_pos h7] at h6; exact ih g p s2 s' (by omega) h6
      · next h7 => rw [if_neg h7] at h6; exact h6

theorem propagateParent_mono {sh : Shape} {f g e : Nat} {s s' : SB} (hg : f ≤ g)
    (h : propagateParent sh f e s = some s') : propagateParent sh g e s = some s' := by
  unfold propagateParent at h ⊢
  cases hp : sh.parent e with
  | none => simp only [hp] at h ⊢; exact h
  | some p =>
    simp only [hp] at h ⊢
    split
    · next h7 => rw [if_pos h7] at h; exact endE_mono f g p s s' hg h
    · next h7 => rw [if_neg h7] at h; exact h

theorem stopE_mono {sh : Shape} : ∀ (f g e : Nat) (s s' : SB), f ≤ g →
    stopE sh f e s = some s' → stopE sh g e s = some s' := by
  intro f
  induction f with
  | zero => intro g e s s' _ h; simp [stopE] at h
  | succ f ih =>
    intro g e s s' hg h
    obtain ⟨g, rfl⟩ : ∃ k, g = k + 1 := ⟨g - 1, by omega⟩
    simp only [stopE, bind, Option.bind_eq_some_iff] at h ⊢
    obtain ⟨s1, h1, h2⟩ := h
    refine ⟨s1, foldlM_mono _ (fun s c s' _ => ih g c s s' (by omega)) s s1 h1, ?_⟩
    split
    · next h3 => rw [if_pos h3] at h2; exact h2
    next h3 =>
    rw [if_neg h3] at h2
    split
    · next h4 => rw [if_pos h4] at h2; exact h2
    next h4 =>
    rw [if_neg h4] at h2
    exact propagateParent_mono (by omega) h2

theorem actionStart_mono {sh : Shape} {orc : Oracle} {f g a : Nat} {s s' : SB} (hg : f ≤ g)
    (h : actionStart sh orc f a s = some s') : actionStart sh orc g a s = some s' := by
  unfold actionStart at h ⊢
  simp only at h ⊢
  cases ho : orc.start s.clock with
  | refuse => simp only [ho] at h ⊢; exact h
  | run => simp only [ho] at h ⊢; exact h
  | instant => simp only [ho] at h ⊢; exact endE_mono f g a _ s' hg h

theorem startOneAction_mono {sh : Shape} {orc : Oracle} {f g a : Nat} {s s' : SB} (hg : f ≤ g)
    (h : startOneAction sh orc f a s = some s') : startOneAction sh orc g a s = some s' := by
  simp only [startOneAction, bind, Option.bind_eq_some_iff] at h ⊢
  obtain ⟨s1, h1, h2⟩ := h
  refine ⟨s1, ?_, actionStart_mono hg h2⟩
  unfold endConflicting at h1 ⊢
  split
  · next obj ho =>
    rw [ho] at h1
    simp only [bind, Option.bind_eq_some_iff] at h1 ⊢
    obtain ⟨s3, h3, h4⟩ := h1
    refine ⟨s3, foldlM_mono _ ?_ _ _ h3, foldlM_mono _ ?_ _ _ h4⟩
    · intro t c t' _ hh
      split
      · next h5 => rw [if_pos h5] at hh; exact endE_mono f g c t t' hg hh
      · next h5 => rw [if_neg h5] at hh; exact hh
    · intro t c t' _ hh
      refine foldlM_mono _ ?_ _ _ hh
      intro t c t' _ hh
      split
      · next h5 => rw [if_pos h5] at hh; exact endE_mono f g c t t' hg hh
      · next h5 => rw [if_neg h5] at hh; exact hh
  · next ho => rw [ho] at h1; exact h1

theorem eventStart_mono {sh : Shape} {orc : Oracle} {f g e : Nat} {s s' : SB} (hg : f ≤ g)
    (h : eventStart sh orc f e s = some s') : eventStart sh orc g e s = some s' := by
  unfold eventStart at h ⊢
  cases hp : sh.parent e with
  | none => simp [hp] at h
  | some m =>
    simp only [hp, bind, Option.bind_eq_some_iff] at h ⊢
    obtain ⟨r, h1, h2⟩ := h
    refine ⟨r, ?_, ?_⟩
    · unfold eventPriority at h1 ⊢
      cases hpr : sh.prio e with
      | overwrite =>
        simp only [hpr] at h1 ⊢
        split
        · next h3 => rw [if_pos h3] at h1; exact h1
        · next h3 =>
          rw [if_neg h3] at h1
          simp only [bind, Option.bind_eq_some_iff] at h1 ⊢
          obtain ⟨s1, h4, h5⟩ := h1
          refine ⟨s1, foldlM_mono _ ?_ _ _ h4, h5⟩
          intro t c t' _ hh
          split
          · next h6 => rw [if_pos h6] at hh; exact endE_mono f g c t t' hg hh
          · next h6 => rw [if_neg h6] at hh; exact hh
      | skip => simp only [hpr] at h1 ⊢; exact h1
      | parallel => simp only [hpr] at h1 ⊢; exact h1
      | undefined => simp only [hpr] at h1 ⊢; exact h1
    · split
      · next h3 => rw [if_pos h3] at h2; exact h2
      next h3 =>
      rw [if_neg h3] at h2
      split
      · next h4 => rw [if_pos h4] at h2; exact h2
      next h4 =>
      rw [if_neg h4] at h2
      split
      · next h5 => rw [if_pos h5] at h2; exact endE_mono f g e _ s' hg h2
      · next h5 =>
        rw [if_neg h5] at h2
        exact foldlM_mono _ (fun t c t' _ => startOneAction_mono hg) _ _ h2

theorem startE_mono {sh : Shape} {orc : Oracle} : ∀ (f g e : Nat) (s s' : SB), f ≤ g →
    startE sh orc f e s = some s' → startE sh orc g e s = some s' := by
  intro f
  induction f with
  | zero => intro g e s s' _ h; simp [startE] at h
  | succ f ih =>
    intro g e s s' hg h
    obtain ⟨g, rfl⟩ : ∃ k, g = k + 1 := ⟨g - 1, by omega⟩
    rw [startE] at h ⊢
    split
    · next he => simp only [he] at h; exact actionStart_mono (by omega) h
    · next he => simp only [he] at h; exact eventStart_mono (by omega) h
    · next h1 h2 =>
      split at h
      · next he => exact absurd he h1
      · next he => exact absurd he h2
      simp only at h ⊢
      split
      · next h3 =>
        rw [if_pos h3] at h
        exact foldlM_mono _ (fun t c t' _ => ih g c t t' (by omega)) _ _ h
      · next h3 => rw [if_neg h3] at h; exact h

theorem evalTriggers_mono {sh : Shape} {orc : Oracle} : ∀ (f g e : Nat) (s s' : SB), f ≤ g →
    evalTriggers sh orc f e s = some s' → evalTriggers sh orc g e s = some s' := by
  intro f
  induction f with
  | zero => intro g e s s' _ h; simp [evalTriggers] at h
  | succ f ih =>
    intro g e s s' hg h
    obtain ⟨g, rfl⟩ : ∃ k, g = k + 1 := ⟨g - 1, by omega⟩
    simp only [evalTriggers, bind, Option.bind_eq_some_iff] at h ⊢
    obtain ⟨s1, h1, s2, h2, h3⟩ := h
    refine ⟨s1, ?_, s2, ?_, ?_⟩
    · unfold evalStop at h1 ⊢
      split
      · next h4 =>
        rw [if_pos h4] at h1
        simp only at h1 ⊢
        split
        · next h5 =>
          rw [if_pos h5] at h1
          simp only [bind, Option.bind_eq_some_iff] at h1 ⊢
          obtain ⟨s3, h6, h7⟩ := h1
          refine ⟨s3, stopE_mono f g e _ _ (by omega) h6, ?_⟩
          split
          · next h8 => rw [if_pos h8] at h7; exact stopE_mono f g e _ _ (by omega) h7
          · next h8 => rw [if_neg h8] at h7; exact h7
        · next h5 => rw [if_neg h5] at h1; exact h1
      · next h4 => rw [if_neg h4] at h1; exact h1
    · unfold evalStart at h2 ⊢
      split
      · next h4 =>
        rw [if_pos h4] at h2
        split
        · next h5 => rw [if_pos h5] at h2; exact startE_mono f g e _ _ (by omega) h2
        · next h5 =>
          rw [if_neg h5] at h2
          simp only at h2 ⊢
          split
          · next h6 => rw [if_pos h6] at h2; exact startE_mono f g e _ _ (by omega) h2
          · next h6 => rw [if_neg h6] at h2; exact h2
      · next h4 => rw [if_neg h4] at h2; exact h2
    · split
      · next h4 =>
        rw [if_pos h4] at h3
        exact foldlM_mono _ (fun t c t' _ => ih g c t t' (by omega)) _ _ h3
      · next h4 => rw [if_neg h4] at h3; exact h3

theorem actionStep_mono {sh : Shape} {orc : Oracle} {f g a : Nat} {s s' : SB} (hg : f ≤ g)
    (h : actionStep sh orc f a s = some s') : actionStep sh orc g a s = some s' := by
  unfold actionStep at h ⊢
  split
  · next h1 =>
    rw [if_pos h1] at h
    simp only at h ⊢
    cases ho : orc.step s.clock with
    | nothing => simp only [ho] at h ⊢; exact h
    | ends => simp only [ho] at h ⊢; exact endE_mono f g a _ s' hg h
    | stops => simp only [ho] at h ⊢; exact stopE_mono f g a _ s' hg h
  · next h1 => rw [if_neg h1] at h; exact h

theorem stepE_mono {sh : Shape} {orc : Oracle} : ∀ (f g e : Nat) (s s' : SB), f ≤ g →
    stepE sh orc f e s = some s' → stepE sh orc g e s = some s' := by
  intro f
  induction f with
  | zero => intro g e s s' _ h; simp [stepE] at h
  | succ f ih =>
    intro g e s s' hg h
    obtain ⟨g, rfl⟩ : ∃ k, g = k + 1 := ⟨g - 1, by omega⟩
    rw [stepE] at h ⊢
    split
    · next he => simp only [he] at h; exact actionStep_mono (by omega) h
    · next he =>
      simp only [he] at h
      exact foldlM_mono _ (fun t c t' _ => actionStep_mono (by omega)) _ _ h
    · next h1 h2 =>
      split at h
      · next he => exact absurd he h1
      · next he => exact absurd he h2
      split
      · next h3 =>
        rw [if_pos h3] at h
        exact foldlM_mono _ (fun t c t' _ => ih g c t t' (by omega)) _ _ h
      · next h3 => rw [if_neg h3] at h; exact h

end Verif.Storyboard
