import Verif.Storyboard.Model
/-
Well-formed trees, the ancestor relation, and what `End`, `Stop` and `Reset` preserve.
-/
namespace Verif.Storyboard

/-- Trees the parser produces (ScenarioReader.cpp:5220-5510): children and parents agree, every
level of the tree has its own element type, events always have a start trigger (5360-5363), only
acts and events have one, objects refer to actions and events, and init actions
(4321-4349) are distinct actions without a parent. -/
structure Shape.WF (sh : Shape) : Prop where
  tree : ∀ c p, c ∈ sh.children p ↔ sh.parent c = some p
  nodup : ∀ p, (sh.children p).Nodup
  level : ∀ c p, sh.parent c = some p → (sh.etype c).level = (sh.etype p).level + 1
  eventStart : ∀ e, sh.etype e = .event → sh.hasStart e = true
  startOnly : ∀ e, sh.hasStart e = true → sh.etype e = .act ∨ sh.etype e = .event
  eventParent : ∀ e, sh.etype e = .event → sh.parent e ≠ none
  initAct : ∀ o a, a ∈ sh.initActionsOf o → sh.etype a = .action
  initActTop : ∀ o a, a ∈ sh.initActionsOf o → sh.parent a = none
  objEv : ∀ o e, e ∈ sh.objectEvents o → sh.etype e = .event
  root : sh.etype sh.root = .storyBoard
  initNodup : sh.initActions.Nodup
  initType : ∀ a ∈ sh.initActions, sh.etype a = .action ∧ sh.parent a = none

theorem EType.level_le (t : EType) : t.level ≤ 7 := by cases t <;> decide
theorem EType.level_ge (t : EType) : 1 ≤ t.level := by cases t <;> decide
theorem EType.level_inj {a b : EType} (h : a.level = b.level) : a = b := by
  cases a <;> cases b <;> first | rfl | (exact absurd h (by decide))

section upd
variable {α : Type}
@[simp] theorem upd_same (f : Nat → α) (i v) : upd f i v i = v := by simp [upd]
theorem upd_other (f : Nat → α) {i j : Nat} (v) (h : j ≠ i) : upd f i v j = f j := by simp [upd, h]
theorem upd_apply (f : Nat → α) (i v j) : upd f i v j = if j = i then v else f j := rfl
end upd

/-! ### loops -/

theorem foldlM_inv {σ β : Type} {f : σ → β → Option σ} (P : σ → Prop) :
    ∀ (l : List β) (s s' : σ), (∀ s c s', c ∈ l → P s → f s c = some s' → P s') →
      l.foldlM f s = some s' → P s → P s' := by
  intro l
  induction l with
  | nil => intro s s' _ h hP; simp at h; exact h ▸ hP
  | cons a l ih =>
    intro s s' step h hP
    simp only [List.foldlM_cons, bind, Option.bind_eq_some_iff] at h
    obtain ⟨s1, h1, h2⟩ := h
    exact ih s1 s' (fun s c s' hc => step s c s' (List.mem_cons_of_mem _ hc)) h2
      (step s a s1 List.mem_cons_self hP h1)

theorem foldlM_rel {σ β : Type} {f : σ → β → Option σ} (R : σ → σ → Prop)
    (refl : ∀ s, R s s) (trans : ∀ a b c, R a b → R b c → R a c)
    (l : List β) (s s' : σ) (step : ∀ s c s', c ∈ l → f s c = some s' → R s s')
    (h : l.foldlM f s = some s') : R s s' :=
  foldlM_inv (R s) l s s' (fun a c b hc ha hb => trans _ _ _ ha (step a c b hc hb)) h (refl s)

/-- Loop rule with knowledge of processed elements: `Q c` is established when `c` is processed and
kept afterwards. -/
theorem foldlM_post {σ β : Type} {f : σ → β → Option σ} (P : σ → Prop) (Q : β → σ → Prop) :
    ∀ (l : List β) (s s' : σ),
      (∀ s c s', c ∈ l → P s → f s c = some s' → P s' ∧ Q c s') →
      (∀ s c s' d, c ∈ l → d ∈ l → P s → f s c = some s' → Q d s → Q d s') →
      l.foldlM f s = some s' → P s → P s' ∧ ∀ c ∈ l, Q c s' := by
  intro l s s' h1 h2 h hP
  suffices H : ∀ (l' : List β) (pre : List β) s, l = pre ++ l' → l'.foldlM f s = some s' → P s →
      (∀ c ∈ pre, Q c s) → P s' ∧ ∀ c ∈ l, Q c s' from
    H l [] s rfl h hP (by simp)
  intro l'
  induction l' with
  | nil =>
    intro pre s hl h hP hQ
    simp at h; subst h
    refine ⟨hP, fun c hc => hQ c ?_⟩
    simpa [hl] using hc
  | cons a l' ih =>
    intro pre s hl h hP hQ
    simp only [List.foldlM_cons, bind, Option.bind_eq_some_iff] at h
    obtain ⟨s1, e1, e2⟩ := h
    have ha : a ∈ l := by rw [hl]; simp
    obtain ⟨p1, q1⟩ := h1 s a s1 ha hP e1
    refine ih (pre ++ [a]) s1 (by simp [hl]) e2 p1 ?_
    intro c hc
    rcases List.mem_append.1 hc with hc | hc
    · exact h2 s a s1 c ha (by rw [hl]; simp [hc]) hP e1 (hQ c hc)
    · simp at hc; subst hc; exact q1

/-- Loop rule with processed and remaining parts. -/
theorem foldlM_split {σ β : Type} {f : σ → β → Option σ} (P : List β → List β → σ → Prop) :
    ∀ (l : List β) (s s' : σ),
      (∀ pre c post s s', l = pre ++ c :: post → P pre (c :: post) s → f s c = some s' →
        P (pre ++ [c]) post s') →
      l.foldlM f s = some s' → P [] l s → P l [] s' := by
  intro l s s' step h hP
  suffices H : ∀ (l' : List β) (pre : List β) s, l = pre ++ l' → l'.foldlM f s = some s' →
      P pre l' s → P l [] s' from H l [] s rfl h hP
  intro l'
  induction l' with
  | nil =>
    intro pre s hl h hP
    simp at h; subst h
    simp at hl; subst hl; exact hP
  | cons a l' ih =>
    intro pre s hl h hP
    simp only [List.foldlM_cons, bind, Option.bind_eq_some_iff] at h
    obtain ⟨s1, e1, e2⟩ := h
    exact ih (pre ++ [a]) s1 (by simp [hl]) e2 (step pre a l' s s1 hl hP e1)

theorem foldlM_id {σ β : Type} {f : σ → β → Option σ} (l : List β) (s s' : σ)
    (hf : ∀ c ∈ l, f s c = some s) (h : l.foldlM f s = some s') : s' = s := by
  induction l with
  | nil => simpa using h.symm
  | cons a l ih =>
    simp only [List.foldlM_cons, bind, Option.bind_eq_some_iff] at h
    obtain ⟨s1, e1, e2⟩ := h
    rw [hf a (by simp)] at e1
    simp at e1; subst e1
    exact ih (fun c hc => hf c (by simp [hc])) e2

/-! ### ancestors -/

/-- `Sub a x`: `x` is `a` or below it. -/
inductive Sub (sh : Shape) (a : Nat) : Nat → Prop
  | refl : Sub sh a a
  | step {c p : Nat} : sh.parent c = some p → Sub sh a p → Sub sh a c

theorem Sub.trans {sh : Shape} {a b c : Nat} (h1 : Sub sh a b) (h2 : Sub sh b c) : Sub sh a c := by
  induction h2 with
  | refl => exact h1
  | step hp _ ih => exact .step hp ih

theorem Sub.child {sh : Shape} {c p : Nat} (h : sh.parent c = some p) : Sub sh p c :=
  .step h .refl

theorem Sub.level {sh : Shape} (wf : sh.WF) {a x : Nat} (h : Sub sh a x) :
    (sh.etype a).level ≤ (sh.etype x).level := by
  induction h with
  | refl => exact Nat.le_refl _
  | step hp _ ih => have := wf.level _ _ hp; omega

/-- Same level and related means equal. -/
theorem Sub.eq_of_level {sh : Shape} (wf : sh.WF) {a x : Nat} (h : Sub sh a x)
    (hl : (sh.etype x).level ≤ (sh.etype a).level) : a = x := by
  cases h with
  | refl => rfl
  | step hp h' => have := wf.level _ _ hp; have := h'.level wf; omega

/-- Below `a` is `a` or below one of its children. -/
theorem Sub.cases_child {sh : Shape} {a x : Nat} (h : Sub sh a x) :
    x = a ∨ ∃ c, sh.parent c = some a ∧ Sub sh c x := by
  induction h with
  | refl => exact .inl rfl
  | @step c p hp _ ih =>
    rcases ih with rfl | ⟨d, hd, hs⟩
    · exact .inr ⟨c, hp, .refl⟩
    · exact .inr ⟨d, hd, .step hp hs⟩

theorem Sub.sibling_ne {sh : Shape} (wf : sh.WF) {p c d : Nat} (hc : sh.parent c = some p)
    (hd : sh.parent d = some p) (hne : c ≠ d) : ¬ Sub sh c d := by
  intro h
  have h1 := wf.level _ _ hc
  have h2 := wf.level _ _ hd
  exact hne (h.eq_of_level wf (by omega))

/-- Two ancestors of the same element are related. -/
theorem Sub.linear {sh : Shape} {a b x : Nat} (ha : Sub sh a x) (hb : Sub sh b x) :
    Sub sh a b ∨ Sub sh b a := by
  induction ha with
  | refl => exact .inr hb
  | @step c p hp hap ih =>
    cases hb with
    | refl => exact .inl (.step hp hap)
    | step hp' hb' =>
      rw [hp] at hp'; cases hp'
      exact ih hb'

theorem Sub.sibling_disjoint {sh : Shape} (wf : sh.WF) {p c d x : Nat} (hc : sh.parent c = some p)
    (hd : sh.parent d = some p) (hne : c ≠ d) (hx : Sub sh c x) : ¬ Sub sh d x := by
  intro h
  rcases hx.linear h with h | h
  · exact Sub.sibling_ne wf hc hd hne h
  · exact Sub.sibling_ne wf hd hc hne.symm h

theorem child_action {sh : Shape} (wf : sh.WF) {c e : Nat} (he : sh.etype e = .event)
    (hc : sh.parent c = some e) : sh.etype c = .action := by
  have := wf.level _ _ hc
  rw [he] at this
  exact EType.level_inj this

theorem action_parent {sh : Shape} (wf : sh.WF) {c e : Nat} (he : sh.etype c = .action)
    (hc : sh.parent c = some e) : sh.etype e = .event := by
  have := wf.level _ _ hc
  rw [he] at this
  exact EType.level_inj (a := sh.etype e) (b := .event) (by simp [EType.level] at this ⊢; omega)

theorem action_leaf {sh : Shape} (wf : sh.WF) {a : Nat} (ha : sh.etype a = .action) :
    sh.children a = [] := by
  apply List.eq_nil_iff_forall_not_mem.2
  intro c hc
  have := wf.level _ _ ((wf.tree c a).1 hc)
  have h2 := EType.level_le (sh.etype c)
  have h3 : EType.action.level = 7 := rfl
  rw [ha] at this; omega

/-- An ancestor of `x` that is not above `y` but whose parent (if any) is. -/
theorem Sub.branch {sh : Shape} (wf : sh.WF) {y : Nat} :
    ∀ (n : Nat) (x : Nat), (sh.etype x).level = n → ¬ Sub sh x y →
      ∃ A, Sub sh A x ∧ ¬ Sub sh A y ∧ ∀ p, sh.parent A = some p → Sub sh p y := by
  intro n
  induction n with
  | zero => intro x hx; have := EType.level_ge (sh.etype x); omega
  | succ n ih =>
    intro x hx hxy
    cases hp : sh.parent x with
    | none => exact ⟨x, .refl, hxy, by simp [hp]⟩
    | some p =>
      by_cases h : Sub sh p y
      · exact ⟨x, .refl, hxy, by intro q hq; rw [hp] at hq; cases hq; exact h⟩
      · have := wf.level _ _ hp
        obtain ⟨A, h1, h2, h3⟩ := ih p (by omega) h
        exact ⟨A, h1.trans (.child hp), h2, h3⟩

/-! ### elementary state changes -/

theorem setState_st (e tr new s x) :
    (setState e tr new s).st x = if x = e then new else s.st x := by
  unfold setState
  split
  · split
    · next h h' => rw [h', h]
    · rfl
  · rfl

@[simp] theorem setState_num (e tr new s) : (setState e tr new s).num = s.num := by
  unfold setState; split <;> rfl

@[simp] theorem setState_clock (e tr new s) : (setState e tr new s).clock = s.clock := by
  unfold setState; split <;> rfl

/-! ### Reset -/

theorem resetE_spec {sh : Shape} (wf : sh.WF) : ∀ (f e : Nat) (s s' : SB),
    resetE sh f e s = some s' →
      s'.num = s.num ∧ s'.clock = s.clock ∧ (∀ x, Sub sh e x → s'.st x = .init) ∧
      (∀ x, ¬ Sub sh e x → s'.st x = s.st x) ∧
      (∃ l, s'.log = l ++ s.log ∧ ∀ t ∈ l, ∃ x, Sub sh e x ∧ t = .reset x) := by
  intro f
  induction f with
  | zero => intro e s s' h; simp [resetE] at h
  | succ f ih =>
    intro e s s' h
    simp only [resetE, bind, Option.bind_eq_some_iff] at h
    obtain ⟨s1, h1, h2⟩ := h
    simp only [Option.some.injEq] at h2
    have hloop := foldlM_post
      (P := fun t => t.num = s.num ∧ t.clock = s.clock ∧ (∀ x, ¬ Sub sh e x → t.st x = s.st x) ∧
        (∃ l, t.log = l ++ s.log ∧ ∀ t ∈ l, ∃ x, Sub sh e x ∧ t = .reset x))
      (Q := fun c t => ∀ x, Sub sh c x → t.st x = .init) (sh.children e) s s1
      (by
        intro a c b hc ⟨p1, p2, p3, l, p4, p5⟩ hb
        obtain ⟨q1, q2, q3, q4, l', q5, q6⟩ := ih c a b hb
        have hce := (wf.tree c e).1 hc
        refine ⟨⟨q1.trans p1, q2.trans p2, ?_, l' ++ l, by simp [q5, p4], ?_⟩, q3⟩
        · intro x hx
          rw [q4 x (fun h => hx ((Sub.child hce).trans h)), p3 x hx]
        · intro t ht
          rcases List.mem_append.1 ht with ht | ht
          · obtain ⟨x, hx, rfl⟩ := q6 t ht
            exact ⟨x, (Sub.child hce).trans hx, rfl⟩
          · exact p5 t ht)
      (by
        intro a c b d hc hd _ hb hq x hx
        obtain ⟨_, _, q3, q4, _⟩ := ih c a b hb
        by_cases h : Sub sh c x
        · exact q3 x h
        · rw [q4 x h]; exact hq x hx)
      h1 ⟨rfl, rfl, fun _ _ => rfl, [], rfl, by simp⟩
    obtain ⟨⟨p1, p2, p3, l, p4, p5⟩, q⟩ := hloop
    subst h2
    refine ⟨p1, p2, ?_, ?_, .reset e :: l, by simp [p4], ?_⟩
    · intro x hx
      rcases hx.cases_child with rfl | ⟨c, hc, hcx⟩
      · simp
      · show upd s1.st e .init x = .init
        rw [upd_apply]; split
        · rfl
        · exact q c ((wf.tree c e).2 hc) x hcx
    · intro x hx
      show upd s1.st e .init x = _
      rw [upd_other _ _ (fun h : x = e => hx (by rw [h]; exact .refl))]
      exact p3 x hx
    · intro t ht
      rcases List.mem_cons.1 ht with rfl | ht
      · exact ⟨e, .refl, rfl⟩
      · exact p5 t ht

/-- Resetting all children of `e`. -/
theorem resetChildren_spec {sh : Shape} (wf : sh.WF) (f e : Nat) (s s' : SB)
    (h : (sh.children e).foldlM (fun s c => resetE sh f c s) s = some s') :
      s'.num = s.num ∧ s'.clock = s.clock ∧ (∀ x, Sub sh e x → x ≠ e → s'.st x = .init) ∧
      (∀ x, ¬ Sub sh e x ∨ x = e → s'.st x = s.st x) ∧
      (∃ l, s'.log = l ++ s.log ∧ ∀ t ∈ l, ∃ x, Sub sh e x ∧ x ≠ e ∧ t = .reset x) := by
  have hne : ∀ c x, sh.parent c = some e → Sub sh c x → x ≠ e := by
    intro c x hc hx he
    subst he
    have h1 := wf.level _ _ hc
    have h2 := hx.level wf
    omega
  have hloop := foldlM_post
      (P := fun t => t.num = s.num ∧ t.clock = s.clock ∧
        (∀ x, ¬ Sub sh e x ∨ x = e → t.st x = s.st x) ∧
        (∃ l, t.log = l ++ s.log ∧ ∀ t ∈ l, ∃ x, Sub sh e x ∧ x ≠ e ∧ t = .reset x))
      (Q := fun c t => ∀ x, Sub sh c x → t.st x = .init) (sh.children e) s s'
      (by
        intro a c b hc ⟨p1, p2, p3, l, p4, p5⟩ hb
        obtain ⟨q1, q2, q3, q4, l', q5, q6⟩ := resetE_spec wf f c a b hb
        have hce := (wf.tree c e).1 hc
        refine ⟨⟨q1.trans p1, q2.trans p2, ?_, l' ++ l, by simp [q5, p4], ?_⟩, q3⟩
        · intro x hx
          rw [q4 x ?_, p3 x hx]
          intro hcx
          rcases hx with hx | hx
          · exact hx ((Sub.child hce).trans hcx)
          · exact hne c x hce hcx hx
        · intro t ht
          rcases List.mem_append.1 ht with ht | ht
          · obtain ⟨x, hx, rfl⟩ := q6 t ht
            exact ⟨x, (Sub.child hce).trans hx, hne c x hce hx, rfl⟩
          · exact p5 t ht)
      (by
        intro a c b d hc hd _ hb hq x hx
        obtain ⟨_, _, q3, q4, _⟩ := resetE_spec wf f c a b hb
        by_cases h : Sub sh c x
        · exact q3 x h
        · rw [q4 x h]; exact hq x hx)
      h ⟨rfl, rfl, fun _ _ => rfl, [], rfl, by simp⟩
  obtain ⟨⟨p1, p2, p3, p4⟩, q⟩ := hloop
  refine ⟨p1, p2, ?_, p3, p4⟩
  intro x hx hxe
  rcases hx.cases_child with rfl | ⟨c, hc, hcx⟩
  · exact absurd rfl hxe
  · exact q c ((wf.tree c e).2 hc) x hcx

end Verif.Storyboard
