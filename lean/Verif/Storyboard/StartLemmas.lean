import Verif.Storyboard.EndLemmas
/-
Frames of `End`, and the invariant through `Stop`, `Start`, trigger evaluation and `Step`.
-/
namespace Verif.Storyboard

/-! ### what `End` leaves alone -/

/-- `A` encloses the changes: it has no parent, or a sibling that is not complete. -/
def Barrier (sh : Shape) (A : Nat) (s : SB) : Prop :=
  ∀ p, sh.parent A = some p → ∃ c, sh.parent c = some p ∧ c ≠ A ∧ s.st c ≠ .complete

theorem Barrier.transfer {sh : Shape} (wf : sh.WF) {A : Nat} {s t : SB} (h : Barrier sh A s)
    (hst : ∀ x, ¬ Sub sh A x → t.st x = s.st x) : Barrier sh A t := by
  intro p hp
  obtain ⟨c, h1, h2, h3⟩ := h p hp
  exact ⟨c, h1, h2, by rw [hst c (Sub.sibling_ne wf hp h1 (Ne.symm h2))]; exact h3⟩

theorem endSelf_frame {sh : Shape} (wf : sh.WF) {f e : Nat} {s s' : SB}
    (h : endSelf sh f e s = some s') (x : Nat) (hx : ¬ Sub sh e x) : s'.st x = s.st x := by
  have hxe : x ≠ e := by rintro rfl; exact hx .refl
  unfold endSelf at h
  repeat' split at h
  · cases h; simp [setState_st, hxe]
  · rw [(resetChildren_spec wf f e _ _ h).2.2.2.1 x (.inl hx)]; simp [setState_st, hxe]
  · cases h; simp [setState_st, hxe]
  · cases h; rfl

theorem endE_frame {sh : Shape} (wf : sh.WF) : ∀ (f e A : Nat) (s s' : SB), Sub sh A e →
    Barrier sh A s → endE sh f e s = some s' → ∀ x, ¬ Sub sh A x → s'.st x = s.st x := by
  intro f
  induction f with
  | zero => intro e A s s' _ _ h; simp [endE] at h
  | succ f ih =>
    intro e A s s' hA hB h
    rw [endE] at h
    split at h
    · cases h; intros; rfl
    simp only [bind, Option.bind_eq_some_iff] at h
    obtain ⟨s1, h1, h2⟩ := h
    have hl : ∀ x, ¬ Sub sh A x → s1.st x = s.st x := by
      refine foldlM_inv (P := fun t => ∀ x, ¬ Sub sh A x → t.st x = s.st x) _ s s1 ?_ h1
        (fun _ _ => rfl)
      intro a c b hc ha hb
      split at hb
      · intro x hx
        rw [ih c A a b (.step ((wf.tree _ _).1 hc) hA) (hB.transfer wf ha) hb x hx, ha x hx]
      · cases hb; exact ha
    split at h2
    · cases h2; exact hl
    simp only [Option.bind_eq_some_iff] at h2
    obtain ⟨s2, h3, h4⟩ := h2
    have hl2 : ∀ x, ¬ Sub sh A x → s2.st x = s.st x := by
      intro x hx
      rw [endSelf_frame wf h3 x (fun h => hx (hA.trans h)), hl x hx]
    cases hp : sh.parent e with
    | none => simp only [hp] at h4; cases h4; exact hl2
    | some p =>
      simp only [hp] at h4
      split at h4
      · next hc =>
        have hall := (allChildrenComplete_iff wf).1 hc.2.2
        cases hA with
        | refl =>
          obtain ⟨c, k1, k2, k3⟩ := hB.transfer wf hl2 p hp
          exact absurd (hall c k1) k3
        | step hp' hA' =>
          rw [hp] at hp'; cases hp'
          intro x hx
          rw [ih p A s2 s' hA' (hB.transfer wf hl2) h4 x hx, hl2 x hx]
      · cases h4; exact hl2

/-- `End` does not affect a running element it is not related to. -/
theorem endE_prot {sh : Shape} (wf : sh.WF) {X : Option Nat} {f e y : Nat} {s s' : SB}
    (hI : Inv sh X s) (hy : s.st y = .running) (h1 : ¬ Sub sh e y) (h2 : ¬ Sub sh y e)
    (h : endE sh f e s = some s') : ∀ x, Sub sh y x ∨ Sub sh x y → s'.st x = s.st x := by
  obtain ⟨A, hA, hAy, hAp⟩ := Sub.branch wf _ e rfl h1
  have hB : Barrier sh A s := by
    intro p hp
    have hpy := hAp p hp
    rcases hpy.cases_child with rfl | ⟨c, hc, hcy⟩
    · exact absurd ((Sub.child hp).trans hA) h2
    · refine ⟨c, hc, ?_, ?_⟩
      · rintro rfl; exact hAy hcy
      · rw [hI.act_sub hcy hy]; simp
  intro x hx
  refine endE_frame wf f e A s s' hA hB h x ?_
  intro hAx
  rcases hx with hx | hx
  · rcases hAx.linear hx with h | h
    · exact hAy h
    · exact h2 (h.trans hA)
  · exact hAy (hAx.trans hx)

/-! ### Stop -/

theorem propagateParent_inv {sh : Shape} (wf : sh.WF) {f e : Nat} {s s' : SB}
    (hI : Inv sh (sh.parent e) s) (h : propagateParent sh f e s = some s') :
    Inv sh none s' ∧ EndSteps sh s s' := by
  unfold propagateParent at h
  cases hp : sh.parent e with
  | none => simp only [hp] at h hI; cases h; exact ⟨hI, .refl⟩
  | some p =>
    simp only [hp] at h hI
    exact propagate_inv wf hp hI (endE_inv wf f p s s') h

theorem stopE_inv {sh : Shape} (wf : sh.WF) : ∀ (f e : Nat) (s s' : SB), Inv sh none s →
    stopE sh f e s = some s' →
    Inv sh none s' ∧ EndSteps sh s s' ∧ ∀ x, Sub sh e x → Quiet s' x := by
  intro f
  induction f with
  | zero => intro e s s' _ h; simp [stopE] at h
  | succ f ih =>
    intro e s s' hI h
    simp only [stopE, bind, Option.bind_eq_some_iff] at h
    obtain ⟨s1, h1, h2⟩ := h
    obtain ⟨⟨i1, i2⟩, i3⟩ := foldlM_post (P := fun t => Inv sh none t ∧ EndSteps sh s t)
      (Q := fun c t => ∀ x, Sub sh c x → Quiet t x) (sh.children e) s s1
      (by
        intro a c b _ ⟨ha, hs⟩ hb
        obtain ⟨j1, j2, j3⟩ := ih c a b ha hb
        exact ⟨⟨j1, hs.trans j2⟩, j3⟩)
      (by
        intro a c b d _ _ ⟨ha, _⟩ hb hq x hx
        exact (ih c a b ha hb).2.1.quiet x (hq x hx))
      h1 ⟨hI, .refl⟩
    have below : ∀ x, Sub sh e x → x ≠ e → Quiet s1 x := by
      intro x hx hxe
      rcases hx.cases_child with rfl | ⟨c, hc, hcx⟩
      · exact absurd rfl hxe
      · exact i3 c ((wf.tree _ _).2 hc) x hcx
    split at h2
    · next he =>
      cases h2
      refine ⟨i1, i2, fun x hx => ?_⟩
      by_cases hxe : x = e
      · subst hxe; exact .inl he
      · exact below x hx hxe
    split at h2
    · next he =>
      cases h2
      refine ⟨i1, i2, fun x hx => ?_⟩
      by_cases hxe : x = e
      · subst hxe; exact .inr he
      · exact below x hx hxe
    next hn1 hn2 =>
    have he : s1.st e = .running ∨ s1.st e = .standby := by
      cases hh : s1.st e <;> simp_all
    have hq : ∀ c, sh.parent c = some e → Quiet s1 c := by
      intro c hc
      refine below c (.child hc) ?_
      rintro rfl
      have := wf.level _ _ hc; omega
    obtain ⟨j1, j2⟩ := propagateParent_inv wf (i1.setComplete wf .stop (.inl rfl) he hq) h2
    refine ⟨j1, i2.trans (.trans (.one (.stop e s1 he)) j2), fun x hx => j2.quiet x ?_⟩
    by_cases hxe : x = e
    · subst hxe; right; simp [setState_st]
    · unfold Quiet; simp only [setState_st, hxe, if_false]; exact below x hx hxe

/-! ### elementary steps of everything -/

/-- The start trigger of `e` was true and `e` has not started running since. -/
def armed (e : Nat) : List Entry → Bool
  | [] => false
  | .trig x :: l => if x = e then true else armed e l
  | .change x _ _ .running :: l => if x = e then false else armed e l
  | _ :: l => armed e l

/-- Elementary steps of a storyboard. -/
inductive El (sh : Shape) : SB → SB → Prop
  | ends {s t : SB} : ElEnd sh s t → El sh s t
  | tick (s : SB) : El sh s { s with clock := s.clock + 1 }
  | trig (e : Nat) (s : SB) : sh.hasStart e = true →
      El sh s { s with log := .trig e :: s.log }
  | stby (e : Nat) (s : SB) : s.st e = .init → sh.hasStart e = true →
      El sh s (setState e .initToStby .standby s)
  | start (e : Nat) (s : SB) : (s.st e = .init ∧ sh.hasStart e = false) ∨
        (s.st e = .standby ∧ (sh.hasStart e = true → armed e s.log = true)) →
      El sh s { setState e .start .running s with num := upd s.num e (s.num e + 1) }

inductive Steps (sh : Shape) (a : SB) : SB → Prop
  | refl : Steps sh a a
  | tail {b c : SB} : Steps sh a b → El sh b c → Steps sh a c

theorem Steps.trans {sh : Shape} {a b c : SB} (h1 : Steps sh a b) (h2 : Steps sh b c) :
    Steps sh a c := by
  induction h2 with
  | refl => exact h1
  | tail _ h ih => exact .tail ih h

theorem Steps.one {sh : Shape} {a b : SB} (h : El sh a b) : Steps sh a b := .tail .refl h

theorem Steps.keeps {sh : Shape} (P : SB → Prop) (hP : ∀ a b, El sh a b → P a → P b)
    {a b : SB} (h : Steps sh a b) (ha : P a) : P b := by
  induction h with
  | refl => exact ha
  | tail _ h ih => exact hP _ _ h ih

theorem EndSteps.steps {sh : Shape} {a b : SB} (h : EndSteps sh a b) : Steps sh a b := by
  induction h with
  | refl => exact .refl
  | tail _ h ih => exact .tail ih (.ends h)

theorem EndSteps.keepsArmed {sh : Shape} {a b : SB} (h : EndSteps sh a b) (e : Nat)
    (ha : armed e a.log = true) : armed e b.log = true := by
  refine h.keeps (fun s => armed e s.log = true) ?_ ha
  intro s t h hs
  cases h with
  | stop x _ _ => unfold setState; split <;> simpa [armed] using hs
  | endC x _ _ _ => unfold setState; split <;> simpa [armed] using hs
  | endS x _ _ _ _ => unfold setState; split <;> simpa [armed] using hs
  | reset x _ _ => simpa [armed] using hs

/-! ### Start -/

theorem Inv.congr {sh : Shape} {X : Option Nat} {s t : SB} (h : Inv sh X s) (hst : t.st = s.st) :
    Inv sh X t := by
  refine ⟨?_, ?_, ?_, ?_⟩ <;> rw [hst]
  · exact h.act
  · exact h.idle
  · exact h.leaf
  · exact h.live

theorem Inv.setRunning {sh : Shape} (wf : sh.WF) {s : SB} {e : Nat} (tr)
    (h : Inv sh none s) (he : s.st e = .init ∨ s.st e = .standby)
    (hp : ∀ p, sh.parent e = some p → s.st p = .running) :
    Inv sh none (setState e tr .running s) := by
  have hch : ∀ c, sh.parent c = some e → s.st c = .init := fun c hc => h.idle c e hc he
  refine ⟨?_, ?_, ?_, ?_⟩
  · intro c p hcp hcs
    simp only [setState_st] at hcs ⊢
    split
    · rfl
    · next hpe =>
      by_cases hce : c = e
      · subst hce; exact hp p hcp
      · simp only [hce, if_false] at hcs; exact h.act c p hcp hcs
  · intro c p hcp hps
    simp only [setState_st] at hps ⊢
    have hpe : p ≠ e := by rintro rfl; simp at hps
    simp only [hpe, if_false] at hps
    have hce : c ≠ e := by
      rintro rfl
      have := hp p hcp; grind
    simp only [hce, if_false]
    exact h.idle c p hcp hps
  · intro a ha
    simp only [setState_st]
    split
    · simp
    · exact h.leaf a ha
  · intro p _ h1 h2 h3
    simp only [setState_st] at h3
    by_cases hpe : p = e
    · subst hpe
      obtain ⟨c, hc⟩ := List.exists_mem_of_ne_nil _ h2
      refine ⟨c, hc, ?_⟩
      have hcp := (wf.tree _ _).1 hc
      have : c ≠ p := by rintro rfl; have := wf.level _ _ hcp; omega
      simp [setState_st, this, hch c hcp]
    · simp only [hpe, if_false] at h3
      obtain ⟨c, hc, hcc⟩ := h.live p (by simp) h1 h2 h3
      refine ⟨c, hc, ?_⟩
      rw [setState_st]; split
      · simp
      · exact hcc

theorem Inv.initStandby {sh : Shape} {s : SB} {e : Nat} (tr)
    (h : Inv sh none s) (he : s.st e = .init) (hna : sh.etype e ≠ .action)
    (hp : ∀ p, sh.parent e = some p → s.st p = .running) :
    Inv sh none (setState e tr .standby s) := by
  refine ⟨?_, ?_, ?_, ?_⟩
  · intro c p hcp hcs
    simp only [setState_st] at hcs ⊢
    by_cases hce : c = e
    · subst hce
      have hpe : p ≠ c := by rintro rfl; have := hp _ hcp; simp [he] at this
      simp [hpe, hp p hcp]
    · simp only [hce, if_false] at hcs
      have := h.act c p hcp hcs
      have hpe : p ≠ e := by rintro rfl; simp [he] at this
      simp [hpe, this]
  · intro c p hcp hps
    simp only [setState_st] at hps ⊢
    have hce : c ≠ e := by
      rintro rfl
      have h1 := hp p hcp
      have hpe : p ≠ c := by rintro rfl; simp [he] at h1
      simp [hpe, h1] at hps
    simp only [hce, if_false]
    by_cases hpe : p = e
    · subst hpe; exact h.idle c p hcp (.inl he)
    · simp only [hpe, if_false] at hps; exact h.idle c p hcp hps
  · intro a ha
    simp only [setState_st]
    split
    · next h => subst h; exact absurd ha hna
    · exact h.leaf a ha
  · intro p _ h1 h2 h3
    simp only [setState_st] at h3
    have hpe : p ≠ e := by rintro rfl; simp at h3
    simp only [hpe, if_false] at h3
    obtain ⟨c, hc, hcc⟩ := h.live p (by simp) h1 h2 h3
    refine ⟨c, hc, ?_⟩
    rw [setState_st]; split
    · simp
    · exact hcc

/-- Effect of the first half of `Start` on an element that is init or standby. -/
theorem startSelf_inv {sh : Shape} (wf : sh.WF) {e : Nat} {s : SB} (hI : Inv sh none s)
    (he : s.st e = .init ∨ s.st e = .standby)
    (hp : ∀ p, sh.parent e = some p → s.st p = .running)
    (ha : s.st e = .standby → sh.hasStart e = true → armed e s.log = true) :
    Inv sh none (startSelf sh e s) ∧ Steps sh s (startSelf sh e s) ∧
    (startSelf sh e s).clock = s.clock ∧
    (∀ x, (startSelf sh e s).st x = if x = e then
      (if s.st e = .init ∧ sh.hasStart e = true then .standby else .running) else s.st x) := by
  unfold startSelf
  by_cases h1 : s.st e = .init ∧ sh.hasStart e = true
  · simp only [h1, and_self, if_true]
    refine ⟨hI.initStandby _ h1.1 ?_ hp, .one (.stby e s h1.1 h1.2), by simp, ?_⟩
    · intro h; have := wf.startOnly e h1.2; simp [h] at this
    · intro x; rw [setState_st]
  · have h2 : (s.st e = .init ∧ sh.hasStart e = false) ∨ s.st e = .standby ∨ s.num e ≠ 0 := by
      rcases he with he | he
      · left; refine ⟨he, ?_⟩; cases hh : sh.hasStart e <;> simp_all
      · exact .inr (.inl he)
    simp only [h1, h2, if_false, if_true]
    refine ⟨(hI.setRunning wf .start he hp).congr rfl, ?_, by simp, ?_⟩
    · rw [setState_num]
      refine .one (.start e s ?_)
      rcases he with he | he
      · left; refine ⟨he, ?_⟩; cases hh : sh.hasStart e <;> simp_all
      · exact .inr ⟨he, ha he⟩
    · intro x; exact setState_st e .start .running s x

theorem noStart_action {sh : Shape} (wf : sh.WF) {a : Nat} (ha : sh.etype a = .action) :
    sh.hasStart a = false := by
  cases hh : sh.hasStart a with
  | false => rfl
  | true => have := wf.startOnly a hh; simp [ha] at this

/-- `End` of an action. -/
theorem endAction_inv {sh : Shape} (wf : sh.WF) {f a : Nat} {s s' : SB} (hI : Inv sh none s)
    (ha : sh.etype a = .action) (h : endE sh f a s = some s') :
    Inv sh none s' ∧ EndSteps sh s s' ∧ s'.st a ≠ .running := by
  refine endE_inv wf f a s s' (hI.weaken _) ?_ (hI.leaf a ha) h
  intro c hc
  have := (wf.tree _ _).2 hc
  rw [action_leaf wf ha] at this; simp at this

/-- `Start` of an action that is init. -/
theorem actionStart_inv {sh : Shape} (wf : sh.WF) {orc : Oracle} {f a : Nat} {s s' : SB}
    (hI : Inv sh none s) (ha : sh.etype a = .action) (hi : s.st a = .init)
    (hp : ∀ p, sh.parent a = some p → s.st p = .running)
    (h : actionStart sh orc f a s = some s') :
    Inv sh none s' ∧ Steps sh s s' ∧
    (Barrier sh a s → ∀ x, x ≠ a → s'.st x = s.st x) ∧
    (∀ x, x ≠ a → s.st x = .init → s'.st x = .init) := by
  have hI' : Inv sh none { s with clock := s.clock + 1 } := hI.congr rfl
  have hs' : Steps sh s { s with clock := s.clock + 1 } := .one (.tick s)
  obtain ⟨j1, j2, j3, j4⟩ := startSelf_inv (e := a) wf hI' (.inl hi) hp (by simp [hi])
  have hxs : ∀ x, Sub sh a x → x = a := fun x hx =>
    (hx.eq_of_level wf (by rw [ha]; exact EType.level_le _)).symm
  unfold actionStart at h
  simp only at h
  split at h
  · cases h; exact ⟨hI', hs', fun _ _ _ => rfl, fun _ _ h => h⟩
  · cases h
    refine ⟨j1, hs'.trans j2, fun _ x hx => ?_, fun x hx h => ?_⟩
    · rw [j4]; simp [hx]
    · rw [j4]; simp [hx, h]
  · obtain ⟨k1, k2, k3⟩ := endAction_inv wf j1 ha h
    refine ⟨k1, hs'.trans (j2.trans k2.steps), fun hB x hx => ?_, fun x hx h => ?_⟩
    · have hB' : Barrier sh a (startSelf sh a { s with clock := s.clock + 1 }) := by
        refine hB.transfer wf ?_
        intro y hy
        have : y ≠ a := by rintro rfl; exact hy .refl
        rw [j4]; simp [this]
      rw [endE_frame wf f a a _ s' .refl hB' h x (fun h => hx (hxs x h)), j4]
      simp [hx]
    · exact k2.init x (by rw [j4]; simp [hx, h])

/-- Ending running actions while an action `a` of a running event `e` is still init. -/
theorem endOther_inv {sh : Shape} (wf : sh.WF) {f e a x : Nat} {s s' : SB}
    (hI : Inv sh none s) (he : sh.etype e = .event) (hr : s.st e = .running)
    (hae : sh.parent a = some e) (hai : s.st a = .init) (hx : sh.etype x = .action)
    (hxr : s.st x = .running) (h : endE sh f x s = some s') :
    Inv sh none s' ∧ EndSteps sh s s' ∧ s'.st e = .running := by
  obtain ⟨k1, k2, _⟩ := endAction_inv wf hI hx h
  refine ⟨k1, k2, ?_⟩
  by_cases hxe : sh.parent x = some e
  · rw [endE_frame wf f x x s s' .refl ?_ h e ?_, hr]
    · intro p hp
      rw [hxe] at hp; cases hp
      refine ⟨a, hae, ?_, by simp [hai]⟩
      rintro rfl; simp [hai] at hxr
    · intro hs
      have := hs.level wf
      rw [hx, he] at this; simp [EType.level] at this
  · rw [endE_prot wf hI hr ?_ ?_ h e (.inl .refl), hr]
    · intro hs
      have := hs.level wf
      rw [hx, he] at this; simp [EType.level] at this
    · intro hs
      rcases hs.cases_child with h1 | ⟨c, hc, hcx⟩
      · rw [h1, he] at hx; simp at hx
      · have hca := child_action wf he hc
        have := hcx.eq_of_level wf (by rw [hca, hx]; exact Nat.le_refl _)
        subst this; exact hxe hc

/-- Loop invariant of the action loop of a running event `e`; `post` are the actions still to be
started. -/
structure LoopInv (sh : Shape) (e : Nat) (post : List Nat) (s : SB) : Prop where
  inv : Inv sh none s
  todo : ∀ a ∈ post, s.st a = .init
  run : post ≠ [] → s.st e = .running

/-- Ending the actions in conflict with the next action `a` of the running event `e`. -/
theorem endConflicting_inv {sh : Shape} (wf : sh.WF) {f e a : Nat}
    {post : List Nat} {s s' : SB} (he : sh.etype e = .event) (hL : LoopInv sh e (a :: post) s)
    (hmem : ∀ x ∈ a :: post, sh.parent x = some e)
    (h1 : endConflicting sh f a s = some s') :
    Inv sh none s' ∧ s'.st e = .running ∧ EndSteps sh s s' := by
  have hae := hmem a (by simp)
  let Q : SB → Prop := fun t => Inv sh none t ∧ t.st e = .running ∧ EndSteps sh s t
  have key : ∀ t x t', Q t → sh.etype x = .action → t.st x = .running →
      endE sh f x t = some t' → Q t' := by
    rintro t x t' ⟨q1, q2, q3⟩ hx hxr ht
    obtain ⟨k1, k2, k3⟩ := endOther_inv wf q1 he q2 hae (q3.init a (hL.todo a (by simp))) hx hxr ht
    exact ⟨k1, k3, q3.trans k2⟩
  have hQ0 : Q s := ⟨hL.inv, hL.run (by simp), .refl⟩
  unfold endConflicting at h1
  split at h1
  · next obj _ =>
    simp only [bind, Option.bind_eq_some_iff] at h1
    obtain ⟨s1, h3, h4⟩ := h1
    have hQ1 : Q s1 := by
      refine foldlM_inv Q _ s s1 ?_ h3 hQ0
      intro t x t' hx hQt ht
      split at ht
      · next hc => exact key t x t' hQt (wf.initAct _ _ hx) hc.2.1 ht
      · cases ht; exact hQt
    refine foldlM_inv Q _ s1 s' ?_ h4 hQ1
    intro t ev t' hev hQt ht
    refine foldlM_inv Q _ t t' ?_ ht hQt
    intro u x u' hx hQu hu
    split at hu
    · next hc =>
      exact key u x u' hQu (child_action wf (wf.objEv _ _ hev) ((wf.tree _ _).1 hx)) hc.2.2.2.1 hu
    · cases hu; exact hQu
  · cases h1; exact hQ0

/-- A running element `d` keeps its whole subtree if no conflicting action is related to it. -/
theorem endConflicting_keeps {sh : Shape} (wf : sh.WF) {f e a d : Nat} {g : Nat → St}
    {post : List Nat} {s s' : SB} (he : sh.etype e = .event) (hL : LoopInv sh e (a :: post) s)
    (hmem : ∀ x ∈ a :: post, sh.parent x = some e)
    (h1 : endConflicting sh f a s = some s')
    (hno : ∀ b, sh.etype b = .action → sh.isPrivate a = true → sh.isPrivate b = true →
      sh.object a ≠ none → sh.object b = sh.object a → conflicts sh a b = true →
      ¬ Sub sh b d ∧ ¬ Sub sh d b)
    (hda : sh.parent d ≠ none)
    (hd : s.st d = .running ∧ ∀ x, Sub sh d x → s.st x = g x) :
    s'.st d = .running ∧ ∀ x, Sub sh d x → s'.st x = g x := by
  have hae := hmem a (by simp)
  let Q : SB → Prop := fun t => (Inv sh none t ∧ t.st e = .running ∧ EndSteps sh s t) ∧
    t.st d = .running ∧ ∀ x, Sub sh d x → t.st x = g x
  have key : ∀ t x t', Q t → sh.etype x = .action → t.st x = .running →
      (¬ Sub sh x d ∧ ¬ Sub sh d x) → endE sh f x t = some t' → Q t' := by
    rintro t x t' ⟨⟨q1, q2, q3⟩, q4, q5⟩ hx hxr hrel ht
    obtain ⟨k1, k2, k3⟩ := endOther_inv wf q1 he q2 hae (q3.init a (hL.todo a (by simp))) hx hxr ht
    have hp := endE_prot wf q1 q4 hrel.1 hrel.2 ht
    exact ⟨⟨k1, k3, q3.trans k2⟩, by rw [hp d (.inl .refl), q4],
      fun y hy => by rw [hp y (.inl hy), q5 y hy]⟩
  have hQ0 : Q s := ⟨⟨hL.inv, hL.run (by simp), .refl⟩, hd⟩
  suffices hQ : Q s' from hQ.2
  unfold endConflicting at h1
  split at h1
  · next obj hobj =>
    have hpa : sh.isPrivate a = true ∧ sh.object a = some obj := by
      split at hobj
      · next h => exact ⟨h, hobj⟩
      · simp at hobj
    simp only [bind, Option.bind_eq_some_iff] at h1
    obtain ⟨s1, h3, h4⟩ := h1
    have hQ1 : Q s1 := by
      refine foldlM_inv Q _ s s1 ?_ h3 hQ0
      intro t x t' hx hQt ht
      split at ht
      · next hc =>
        refine key t x t' hQt (wf.initAct _ _ hx) hc.2.1 ?_ ht
        have htop := wf.initActTop _ _ hx
        constructor
        · intro hh
          have := hh.eq_of_level wf (by rw [wf.initAct _ _ hx]; exact EType.level_le _)
          subst this
          exact hda htop
        · intro hh
          cases hh with
          | refl => exact hda htop
          | step hp _ => rw [htop] at hp; simp at hp
      · cases ht; exact hQt
    refine foldlM_inv Q _ s1 s' ?_ h4 hQ1
    intro t ev t' hev hQt ht
    refine foldlM_inv Q _ t t' ?_ ht hQt
    intro u x u' hx hQu hu
    split at hu
    · next hc =>
      have hxt := child_action wf (wf.objEv _ _ hev) ((wf.tree _ _).1 hx)
      exact key u x u' hQu hxt hc.2.2.2.1
        (hno x hxt hpa.1 hc.1 (by simp [hpa.2]) (by rw [hc.2.2.1, hpa.2]) hc.2.2.2.2) hu
    · cases hu; exact hQu
  · cases h1; exact hQ0

theorem startOneAction_inv {sh : Shape} (wf : sh.WF) {orc : Oracle} {f e a : Nat}
    {post : List Nat} {s s' : SB} (he : sh.etype e = .event) (hL : LoopInv sh e (a :: post) s)
    (hmem : ∀ x ∈ a :: post, sh.parent x = some e) (hnd : (a :: post).Nodup)
    (h : startOneAction sh orc f a s = some s') :
    LoopInv sh e post s' ∧ Steps sh s s' := by
  have hae := hmem a (by simp)
  have hat := child_action wf he hae
  simp only [startOneAction, bind, Option.bind_eq_some_iff] at h
  obtain ⟨s2, h1, h2⟩ := h
  obtain ⟨q1, q2, q3⟩ := endConflicting_inv wf he hL hmem h1
  have hai : s2.st a = .init := q3.init a (hL.todo a (by simp))
  obtain ⟨k1, k2, k3, k4⟩ := actionStart_inv wf q1 hat hai
    (by intro p hp; rw [hae] at hp; cases hp; exact q2) h2
  refine ⟨⟨k1, ?_, ?_⟩, q3.steps.trans k2⟩
  · intro b hb
    have hba : b ≠ a := by rintro rfl; simp [hb] at hnd
    exact k4 b hba (q3.init b (hL.todo b (by simp [hb])))
  · intro hne
    obtain ⟨b, hb⟩ := List.exists_mem_of_ne_nil _ hne
    have hba : b ≠ a := by rintro rfl; simp [hb] at hnd
    have hea : e ≠ a := by rintro rfl; rw [he] at hat; simp at hat
    rw [k3 ?_ e hea, q2]
    intro p hp
    rw [hae] at hp; cases hp
    exact ⟨b, hmem b (by simp [hb]), hba, by rw [q3.init b (hL.todo b (by simp [hb]))]; simp⟩

/-- Outcome of the priority check for an event that is standby or init. -/
theorem eventPriority_inv {sh : Shape} (wf : sh.WF) {f e m : Nat} {s : SB} {r : Bool × SB}
    (hI : Inv sh none s) (he : sh.etype e = .event) (hm : sh.parent e = some m)
    (hs : s.st e = .standby ∨ s.st e = .init)
    (h : eventPriority sh f e m s = some r) :
    Inv sh none r.2 ∧ EndSteps sh s r.2 ∧ r.2.st e = s.st e ∧ r.2.st m = s.st m := by
  unfold eventPriority at h
  split at h
  · split at h
    · next hr => simp [hr] at hs
    · simp only [bind, Option.bind_eq_some_iff] at h
      obtain ⟨s1, h1, h2⟩ := h
      cases h2
      refine foldlM_inv (P := fun t => Inv sh none t ∧ EndSteps sh s t ∧ t.st e = s.st e ∧
        t.st m = s.st m) _ s s1 ?_ h1 ⟨hI, .refl, rfl, rfl⟩
      rintro t x t' hx ⟨p1, p2, p3, p4⟩ ht
      split at ht
      · next hc =>
        have hxm := (wf.tree _ _).1 hx
        have hxe : sh.etype x = .event := by
          have l1 := wf.level _ _ hm; have l2 := wf.level _ _ hxm
          exact EType.level_inj (by rw [← he] ; omega)
        obtain ⟨k1, k2, _⟩ := endE_inv wf f x t t' (p1.weaken _)
          (fun c hc => .inr (child_action wf hxe hc)) (by simp [hc.2]) ht
        have hfr := endE_frame wf f x x t t' .refl (by
          intro p hp
          rw [hxm] at hp; cases hp
          exact ⟨e, hm, Ne.symm hc.1, by rw [p3]; rcases hs with h | h <;> simp [h]⟩) ht
        refine ⟨k1, p2.trans k2, ?_, ?_⟩
        · rw [hfr e (Sub.sibling_ne wf hxm hm hc.1), p3]
        · rw [hfr m ?_, p4]
          intro hh
          have l1 := hh.level wf; have l2 := wf.level _ _ hxm; omega
      · cases ht; exact ⟨p1, p2, p3, p4⟩
  all_goals (cases h; exact ⟨hI, .refl, rfl, rfl⟩)

/-- `Event::Start` of an event whose start trigger just fired. -/
theorem eventStart_standby {sh : Shape} (wf : sh.WF) {orc : Oracle} {f e : Nat} {s s' : SB}
    (hI : Inv sh none s) (he : sh.etype e = .event) (hs : s.st e = .standby)
    (ha : armed e s.log = true) (h : eventStart sh orc f e s = some s') :
    Inv sh none s' ∧ Steps sh s s' := by
  unfold eventStart at h
  split at h
  · simp at h
  next m hm =>
  simp only [bind, Option.bind_eq_some_iff] at h
  obtain ⟨⟨go, s1⟩, h1, h2⟩ := h
  obtain ⟨i1, i2, i3, i4⟩ := eventPriority_inv wf hI he hm (.inl hs) h1
  simp only at i1 i2 i3 i4
  have hmr : s.st m = .running := hI.act _ _ hm (.inr hs)
  split at h2
  · cases h2; exact ⟨i1, i2.steps⟩
  obtain ⟨j1, j2, j3, j4⟩ := startSelf_inv (e := e) wf i1 (.inr (by rw [i3, hs]))
    (by intro p hp; rw [hm] at hp; cases hp; rw [i4, hmr])
    (fun _ _ => i2.keepsArmed e ha)
  have hS := i2.steps.trans j2
  have hrun : (startSelf sh e s1).st e = .running := by
    rw [j4]; simp [i3, hs]
  simp only [hrun, ne_eq, not_true_eq_false, if_false] at h2
  split at h2
  · next hnil =>
    obtain ⟨k1, k2, _⟩ := endE_inv wf f e _ s' (j1.weaken _)
      (fun c hc => by have := (wf.tree _ _).2 hc; simp [hnil] at this) (by simp [hrun]) h2
    exact ⟨k1, hS.trans k2.steps⟩
  · have := foldlM_split
      (P := fun _ post t => LoopInv sh e post t ∧ Steps sh s t) (sh.children e) _ s'
      (by
        rintro pre a post t t' hl ⟨hL, hSt⟩ ht
        obtain ⟨k1, k2⟩ := startOneAction_inv wf he hL
          (fun x hx => (wf.tree _ _).1 (by rw [hl]; exact List.mem_append_right _ hx))
          (by have := wf.nodup e; rw [hl] at this; exact (List.nodup_append.1 this).2.1) ht
        exact ⟨k1, hSt.trans k2⟩)
      h2
      ⟨⟨j1, fun a ha => by
          have hp := (wf.tree _ _).1 ha
          have : a ≠ e := by rintro rfl; have := wf.level _ _ hp; omega
          rw [j4]; simp only [this, if_false]
          exact i1.idle a e hp (.inr (by rw [i3, hs])), fun _ => hrun⟩, hS⟩
    exact ⟨this.1.inv, this.2⟩

/-- Starting an event that is init while no event of the maneuver runs. -/
theorem eventStart_init {sh : Shape} (wf : sh.WF) {orc : Oracle} {f e : Nat} {s s' : SB}
    (hI : Inv sh none s) (he : sh.etype e = .event) (hs : s.st e = .init)
    (hp : ∀ p, sh.parent e = some p → s.st p = .running)
    (hno : ∀ d p, sh.parent e = some p → sh.parent d = some p → s.st d ≠ .running)
    (h : eventStart sh orc f e s = some s') :
    Inv sh none s' ∧ Steps sh s s' ∧ (∀ x, x ≠ e → s'.st x = s.st x) ∧
    (s'.st e = .init ∨ s'.st e = .standby) := by
  unfold eventStart at h
  split at h
  · simp at h
  next m hm =>
  simp only [bind, Option.bind_eq_some_iff] at h
  obtain ⟨⟨go, s1⟩, h1, h2⟩ := h
  have hs1 : s1 = s := by
    unfold eventPriority at h1
    split at h1
    · split at h1
      · cases h1; rfl
      · simp only [bind, Option.bind_eq_some_iff] at h1
        obtain ⟨t, h3, h4⟩ := h1
        cases h4
        refine foldlM_id _ _ _ ?_ h3
        intro c hc
        have := hno c m hm ((wf.tree _ _).1 hc)
        simp [this]
    all_goals (cases h1; rfl)
  subst hs1
  split at h2
  · cases h2; exact ⟨hI, .refl, fun _ _ => rfl, .inl hs⟩
  obtain ⟨j1, j2, j3, j4⟩ := startSelf_inv (e := e) wf hI (.inl hs) hp (by simp [hs])
  have hst : (startSelf sh e s1).st e = .standby := by
    rw [j4]; simp [hs, wf.eventStart e he]
  simp only [hst] at h2
  simp only [ne_eq, reduceCtorEq, not_false_eq_true, if_true] at h2
  cases h2
  refine ⟨j1, j2, fun x hx => ?_, .inr hst⟩
  rw [j4]; simp [hx]

/-- `Start` of anything but actions. -/
theorem startE_inv {sh : Shape} (wf : sh.WF) {orc : Oracle} : ∀ (f e : Nat) (s s' : SB),
    Inv sh none s → sh.etype e ≠ .action →
    (s.st e = .init ∨ (s.st e = .standby ∧ sh.etype e ≠ .event)) →
    (∀ p, sh.parent e = some p → s.st p = .running) →
    (s.st e = .standby → sh.hasStart e = true → armed e s.log = true) →
    (sh.etype e = .event → ∀ d p, sh.parent e = some p → sh.parent d = some p →
      s.st d ≠ .running) →
    startE sh orc f e s = some s' →
    Inv sh none s' ∧ Steps sh s s' ∧ (∀ x, ¬ Sub sh e x → s'.st x = s.st x) ∧
    s'.st e ≠ .complete ∧ (sh.etype e = .event → s'.st e ≠ .running) := by
  intro f
  induction f with
  | zero => intro e s s' _ _ _ _ _ _ h; simp [startE] at h
  | succ f ih =>
    intro e s s' hI hna hs hp ha hev h
    rw [startE] at h
    split at h
    · next hh => exact absurd hh hna
    · next he =>
      have hi : s.st e = .init := by
        rcases hs with h | h
        · exact h
        · exact absurd he h.2
      obtain ⟨k1, k2, k3, k4⟩ := eventStart_init wf hI he hi hp (hev he) h
      refine ⟨k1, k2, fun x hx => k3 x (by rintro rfl; exact hx .refl), ?_, fun _ => ?_⟩
      · rcases k4 with h | h <;> simp [h]
      · rcases k4 with h | h <;> simp [h]
    · next hne =>
      have hnev : sh.etype e ≠ .event := hne
      have hs' : s.st e = .init ∨ s.st e = .standby := by
        rcases hs with h | h
        · exact .inl h
        · exact .inr h.1
      obtain ⟨j1, j2, j3, j4⟩ := startSelf_inv (e := e) wf hI hs' hp ha
      have hfr : ∀ x, ¬ Sub sh e x → (startSelf sh e s).st x = s.st x := by
        intro x hx
        have : x ≠ e := by rintro rfl; exact hx .refl
        rw [j4]; simp [this]
      simp only at h
      split at h
      · next hrun =>
        have hch : ∀ c, sh.parent c = some e → s.st c = .init := fun c hc => hI.idle c e hc hs'
        have hchne : ∀ c, sh.parent c = some e → c ≠ e := by
          rintro c hc rfl; have := wf.level _ _ hc; omega
        have := foldlM_split
          (P := fun pre post t => Inv sh none t ∧ Steps sh s t ∧ t.st e = .running ∧
            (∀ x, ¬ Sub sh e x → t.st x = s.st x) ∧ (∀ c ∈ post, t.st c = .init) ∧
            (∀ c ∈ pre, sh.etype c = .event → t.st c ≠ .running)) (sh.children e) _ s'
          (by
            rintro pre c post t t' hl ⟨p1, p2, p3, p4, p5, p6⟩ ht
            have hmem : ∀ d, d ∈ pre ++ c :: post → sh.parent d = some e := fun d hd =>
              (wf.tree _ _).1 (by rw [hl]; exact hd)
            have hnd := wf.nodup e
            rw [hl] at hnd
            have hc := hmem c (by simp)
            have hca : sh.etype c ≠ .action := by
              intro hh; exact hnev (action_parent wf hh hc)
            obtain ⟨k1, k2, k3, k4, k5⟩ := ih c t t' p1 hca (.inl (p5 c (by simp)))
              (by intro q hq; rw [hc] at hq; cases hq; exact p3)
              (by intro hh; rw [p5 c (by simp)] at hh; simp at hh)
              (by
                intro hce d q hq hd
                rw [hc] at hq; cases hq
                have hd' := (wf.tree _ _).2 hd
                rw [hl] at hd'
                have hde : sh.etype d = .event := by
                  have l1 := wf.level _ _ hc; have l2 := wf.level _ _ hd
                  exact EType.level_inj (by rw [← hce] ; omega)
                rcases List.mem_append.1 hd' with hd' | hd'
                · exact p6 d hd' hde
                · rw [p5 d hd']; simp) ht
            have hsib : ∀ d, sh.parent d = some e → d ≠ c → t'.st d = t.st d := fun d hd hdc =>
              k3 d (Sub.sibling_ne wf hc hd (Ne.symm hdc))
            refine ⟨k1, p2.trans k2, ?_, ?_, ?_, ?_⟩
            · rw [k3 e ?_, p3]
              intro hh; have l1 := hh.level wf; have l2 := wf.level _ _ hc; omega
            · intro x hx
              rw [k3 x (fun hh => hx ((Sub.child hc).trans hh)), p4 x hx]
            · intro d hd
              have hdc : d ≠ c := by
                rintro rfl
                have := (List.nodup_append.1 hnd).2.1
                simp [hd] at this
              rw [hsib d (hmem d (by simp [hd])) hdc]; exact p5 d (by simp [hd])
            · intro d hd hde
              rcases List.mem_append.1 hd with hd | hd
              · have hdc : d ≠ c := by
                  intro hh
                  subst hh
                  exact (List.nodup_append.1 hnd).2.2 d (by assumption) d (by simp) rfl
                rw [hsib d (hmem d (by simp [hd])) hdc]; exact p6 d hd hde
              · simp at hd; subst hd; exact k5 hde)
          h ⟨j1, j2, hrun, hfr, fun c hc => by
              have hcp := (wf.tree _ _).1 hc
              rw [j4]; simp [hchne c hcp, hch c hcp], by simp⟩
        obtain ⟨p1, p2, p3, p4, _, _⟩ := this
        exact ⟨p1, p2, p4, by simp [p3], fun h => absurd h hnev⟩
      · next hrun =>
        cases h
        refine ⟨j1, j2, hfr, ?_, fun h => absurd h hnev⟩
        rw [j4]; simp only [if_true]; split <;> simp

/-! ### trigger evaluation and step -/

theorem evalStop_inv {sh : Shape} (wf : sh.WF) {orc : Oracle} {f e : Nat} {s s' : SB}
    (hI : Inv sh none s) (h : evalStop sh orc f e s = some s') :
    Inv sh none s' ∧ Steps sh s s' := by
  unfold evalStop at h
  split at h
  · simp only at h
    have hI' : Inv sh none { s with clock := s.clock + 1 } := hI.congr rfl
    have hS' : Steps sh s { s with clock := s.clock + 1 } := .one (.tick s)
    split at h
    · simp only [bind, Option.bind_eq_some_iff] at h
      obtain ⟨s1, h1, h2⟩ := h
      obtain ⟨i1, i2, _⟩ := stopE_inv wf f e _ _ hI' h1
      split at h2
      · obtain ⟨j1, j2, _⟩ := stopE_inv wf f e _ _ i1 h2
        exact ⟨j1, hS'.trans (i2.trans j2).steps⟩
      · cases h2; exact ⟨i1, hS'.trans i2.steps⟩
    · cases h; exact ⟨hI', hS'⟩
  · cases h; exact ⟨hI, .refl⟩

theorem evalStart_inv {sh : Shape} (wf : sh.WF) {orc : Oracle} {f e : Nat} {s s' : SB}
    (hI : Inv sh none s) (h : evalStart sh orc f e s = some s') :
    Inv sh none s' ∧ Steps sh s s' := by
  unfold evalStart at h
  split at h
  · next hst =>
    have hna : sh.etype e ≠ .action := fun hh => hI.leaf e hh hst
    have hpar : ∀ p, sh.parent e = some p → s.st p = .running := fun p hp =>
      hI.act _ _ hp (.inr hst)
    split at h
    · next hns =>
      have hne : sh.etype e ≠ .event := by
        intro hh; have := wf.eventStart e hh; simp [hns] at this
      obtain ⟨k1, k2, _⟩ := startE_inv wf f e s s' hI hna (.inr ⟨hst, hne⟩) hpar
        (by simp [hns]) (fun hh => absurd hh hne) h
      exact ⟨k1, k2⟩
    · next hns =>
      simp only at h
      have hS : sh.hasStart e = true := by simpa using hns
      have hI' : Inv sh none { s with clock := s.clock + 1 } := hI.congr rfl
      have hS' : Steps sh s { s with clock := s.clock + 1 } := .one (.tick s)
      split at h
      · have hI2 : Inv sh none { s with clock := s.clock + 1, log := .trig e :: s.log } :=
          hI.congr rfl
        have hS2 : Steps sh s { s with clock := s.clock + 1, log := .trig e :: s.log } :=
          hS'.tail (.trig e { s with clock := s.clock + 1 } hS)
        have harm : armed e (.trig e :: s.log) = true := by simp [armed]
        by_cases hev : sh.etype e = .event
        · cases f with
          | zero => simp [startE] at h
          | succ f =>
            rw [startE] at h
            simp only [hev] at h
            obtain ⟨k1, k2⟩ := eventStart_standby wf hI2 hev hst harm h
            exact ⟨k1, hS2.trans k2⟩
        · obtain ⟨k1, k2, _⟩ := startE_inv wf f e _ s' hI2 hna (.inr ⟨hst, hev⟩) hpar
            (fun _ _ => harm) (fun hh => absurd hh hev) h
          exact ⟨k1, hS2.trans k2⟩
      · cases h; exact ⟨hI', hS'⟩
  · cases h; exact ⟨hI, .refl⟩

theorem evalTriggers_inv {sh : Shape} (wf : sh.WF) {orc : Oracle} : ∀ (f e : Nat) (s s' : SB),
    Inv sh none s → evalTriggers sh orc f e s = some s' → Inv sh none s' ∧ Steps sh s s' := by
  intro f
  induction f with
  | zero => intro e s s' _ h; simp [evalTriggers] at h
  | succ f ih =>
    intro e s s' hI h
    simp only [evalTriggers, bind, Option.bind_eq_some_iff] at h
    obtain ⟨s1, h1, s2, h2, h3⟩ := h
    obtain ⟨i1, i2⟩ := evalStop_inv wf hI h1
    obtain ⟨j1, j2⟩ := evalStart_inv wf i1 h2
    have hS := i2.trans j2
    split at h3
    · refine foldlM_inv (P := fun t => Inv sh none t ∧ Steps sh s t) _ s2 s' ?_ h3 ⟨j1, hS⟩
      rintro a c b _ ⟨ha, hSa⟩ hb
      obtain ⟨k1, k2⟩ := ih c a b ha hb
      exact ⟨k1, hSa.trans k2⟩
    · cases h3; exact ⟨j1, hS⟩

theorem actionStep_inv {sh : Shape} (wf : sh.WF) {orc : Oracle} {f a : Nat} {s s' : SB}
    (hI : Inv sh none s) (ha : sh.etype a = .action) (h : actionStep sh orc f a s = some s') :
    Inv sh none s' ∧ Steps sh s s' := by
  unfold actionStep at h
  have hI' : Inv sh none { s with clock := s.clock + 1 } := hI.congr rfl
  have hS' : Steps sh s { s with clock := s.clock + 1 } := .one (.tick s)
  split at h
  · simp only at h
    split at h
    · cases h; exact ⟨hI', hS'⟩
    · obtain ⟨k1, k2, _⟩ := endAction_inv wf hI' ha h
      exact ⟨k1, hS'.trans k2.steps⟩
    · obtain ⟨k1, k2, _⟩ := stopE_inv wf f a _ _ hI' h
      exact ⟨k1, hS'.trans k2.steps⟩
  · cases h; exact ⟨hI, .refl⟩

theorem stepE_inv {sh : Shape} (wf : sh.WF) {orc : Oracle} : ∀ (f e : Nat) (s s' : SB),
    Inv sh none s → stepE sh orc f e s = some s' → Inv sh none s' ∧ Steps sh s s' := by
  intro f
  induction f with
  | zero => intro e s s' _ h; simp [stepE] at h
  | succ f ih =>
    intro e s s' hI h
    rw [stepE] at h
    split at h
    · next he => exact actionStep_inv wf hI he h
    · next he =>
      refine foldlM_inv (P := fun t => Inv sh none t ∧ Steps sh s t) _ s s' ?_ h ⟨hI, .refl⟩
      rintro a c b hc ⟨ha, hSa⟩ hb
      obtain ⟨k1, k2⟩ := actionStep_inv wf ha (child_action wf he ((wf.tree _ _).1 hc)) hb
      exact ⟨k1, hSa.trans k2⟩
    · split at h
      · refine foldlM_inv (P := fun t => Inv sh none t ∧ Steps sh s t) _ s s' ?_ h ⟨hI, .refl⟩
        rintro a c b hc ⟨ha, hSa⟩ hb
        obtain ⟨k1, k2⟩ := ih c a b ha hb
        exact ⟨k1, hSa.trans k2⟩
      · cases h; exact ⟨hI, .refl⟩

theorem injectedStep_inv {sh : Shape} (wf : sh.WF) {orc : Oracle} {f a : Nat} {s s' : SB}
    (hI : Inv sh none s) (ha : sh.etype a = .action) (hp : sh.parent a = none)
    (h : injectedStep sh orc f a s = some s') : Inv sh none s' ∧ Steps sh s s' := by
  unfold injectedStep at h
  have hI' : Inv sh none { s with clock := s.clock + 1 } := hI.congr rfl
  have hS' : Steps sh s { s with clock := s.clock + 1 } := .one (.tick s)
  split at h
  · next hst =>
    have hi : s.st a = .init := by
      rcases hst with h | h
      · exact h
      · exact absurd h (hI.leaf a ha)
    obtain ⟨k1, k2, _⟩ := actionStart_inv wf hI ha hi (by simp [hp]) h
    exact ⟨k1, k2⟩
  · simp only at h
    split at h
    · cases h; exact ⟨hI', hS'⟩
    · obtain ⟨k1, k2, _⟩ := endAction_inv wf hI' ha h
      exact ⟨k1, hS'.trans k2.steps⟩
    · obtain ⟨k1, k2, _⟩ := stopE_inv wf f a _ _ hI' h
      exact ⟨k1, hS'.trans k2.steps⟩

theorem Inv.fresh (sh : Shape) : Inv sh none SB.fresh := by
  refine ⟨?_, ?_, ?_, ?_⟩ <;> simp [SB.fresh]

/-- Starting a freshly parsed storyboard. -/
theorem sbStart_inv {sh : Shape} (wf : sh.WF) {orc : Oracle} {f : Nat} {s' : SB}
    (h : sbStart sh orc f SB.fresh = some s') : Inv sh none s' ∧ Steps sh SB.fresh s' := by
  simp only [sbStart, bind, Option.bind_eq_some_iff] at h
  obtain ⟨s1, h1, h2⟩ := h
  have hroot : sh.parent sh.root = none := by
    cases hp : sh.parent sh.root with
    | none => rfl
    | some p =>
      have l := wf.level _ _ hp
      rw [wf.root] at l
      have := EType.level_ge (sh.etype p)
      have h1 : EType.storyBoard.level = 1 := rfl
      omega
  have := foldlM_split
    (P := fun _ post t => Inv sh none t ∧ Steps sh SB.fresh t ∧ (∀ a ∈ post, t.st a = .init) ∧
      (∀ x, sh.etype x ≠ .action → t.st x = .init)) sh.initActions _ s1
    (by
      rintro pre a post t t' hl ⟨p1, p2, p3, p4⟩ ht
      obtain ⟨hat, hap⟩ := wf.initType a (by rw [hl]; simp)
      obtain ⟨k1, k2, k3, k4⟩ := actionStart_inv wf p1 hat (p3 a (by simp)) (by simp [hap]) ht
      have hB : Barrier sh a t := by intro p hp; simp [hap] at hp
      have hnd := wf.initNodup
      rw [hl] at hnd
      refine ⟨k1, p2.trans k2, ?_, ?_⟩
      · intro b hb
        have : b ≠ a := by
          rintro rfl
          have := (List.nodup_append.1 hnd).2.1
          simp [hb] at this
        rw [k3 hB b this]; exact p3 b (by simp [hb])
      · intro x hx
        have : x ≠ a := by rintro rfl; exact hx hat
        rw [k3 hB x this]; exact p4 x hx)
    h1 ⟨.fresh sh, .refl, fun _ _ => rfl, fun _ _ => rfl⟩
  obtain ⟨p1, p2, _, p4⟩ := this
  obtain ⟨k1, k2, _⟩ := startE_inv wf f sh.root s1 s' p1 (by simp [wf.root])
    (.inl (p4 _ (by simp [wf.root]))) (by simp [hroot])
    (by rw [p4 _ (by simp [wf.root])]; simp) (by simp [wf.root]) h2
  exact ⟨k1, p2.trans k2⟩

theorem sbStep_inv {sh : Shape} (wf : sh.WF) {orc : Oracle} {f : Nat} {s s' : SB}
    (hI : Inv sh none s) (h : sbStep sh orc f s = some s') : Inv sh none s' ∧ Steps sh s s' := by
  simp only [sbStep, bind, Option.bind_eq_some_iff] at h
  obtain ⟨s1, h1, s2, h2, h3⟩ := h
  obtain ⟨i1, i2⟩ := evalTriggers_inv wf f _ _ _ hI h1
  have := foldlM_inv (P := fun t => Inv sh none t ∧ Steps sh s t) _ s1 s2
    (by
      rintro a c b hc ⟨ha, hSa⟩ hb
      obtain ⟨k1, k2⟩ := actionStep_inv wf ha (wf.initType c hc).1 hb
      exact ⟨k1, hSa.trans k2⟩) h2 ⟨i1, i2⟩
  obtain ⟨j1, j2⟩ := this
  obtain ⟨k1, k2⟩ := stepE_inv wf f _ _ _ j1 h3
  exact ⟨k1, j2.trans k2⟩

end Verif.Storyboard
