import Verif.Storyboard.Lemmas
/-
`End`, `Stop` and `Reset` as sequences of elementary steps, and the tree invariant they keep.
-/
namespace Verif.Storyboard

/-- Element types that can be executed repeatedly. -/
def Rep (sh : Shape) (e : Nat) : Prop := sh.etype e = .maneuverGroup ∨ sh.etype e = .event

/-- Strictly below an element that can be executed repeatedly. -/
def RepAbove (sh : Shape) (x : Nat) : Prop := ∃ a, Rep sh a ∧ Sub sh a x ∧ a ≠ x

/-- Elementary steps made by `End`, `Stop`, `Reset`. -/
inductive ElEnd (sh : Shape) : SB → SB → Prop
  | stop (e : Nat) (s : SB) : (s.st e = .running ∨ s.st e = .standby) →
      ElEnd sh s (setState e .stop .complete s)
  | endC (e : Nat) (s : SB) : s.st e = .running →
      (Rep sh e → sh.maxExec e ≠ -1 ∧ (s.num e : Int) ≥ sh.maxExec e) →
      ElEnd sh s (setState e .end .complete s)
  | endS (e : Nat) (s : SB) : s.st e = .running → Rep sh e →
      (sh.maxExec e = -1 ∨ (s.num e : Int) < sh.maxExec e) →
      ElEnd sh s (setState e .end .standby s)
  | reset (e : Nat) (s : SB) : RepAbove sh e →
      ElEnd sh s { s with st := upd s.st e .init, log := .reset e :: s.log }

inductive EndSteps (sh : Shape) (a : SB) : SB → Prop
  | refl : EndSteps sh a a
  | tail {b c : SB} : EndSteps sh a b → ElEnd sh b c → EndSteps sh a c

theorem EndSteps.trans {sh : Shape} {a b c : SB} (h1 : EndSteps sh a b) (h2 : EndSteps sh b c) :
    EndSteps sh a c := by
  induction h2 with
  | refl => exact h1
  | tail _ h ih => exact .tail ih h

theorem EndSteps.one {sh : Shape} {a b : SB} (h : ElEnd sh a b) : EndSteps sh a b := .tail .refl h

/-- A predicate kept by the elementary steps is kept by sequences. -/
theorem EndSteps.keeps {sh : Shape} (P : SB → Prop) (hP : ∀ a b, ElEnd sh a b → P a → P b)
    {a b : SB} (h : EndSteps sh a b) (ha : P a) : P b := by
  induction h with
  | refl => exact ha
  | tail _ h ih => exact hP _ _ h ih

theorem EndSteps.num {sh : Shape} {a b : SB} (h : EndSteps sh a b) : b.num = a.num := by
  refine h.keeps (fun s => s.num = a.num) ?_ rfl
  intro s t h hs; cases h <;> simpa using hs

theorem EndSteps.clock {sh : Shape} {a b : SB} (h : EndSteps sh a b) : b.clock = a.clock := by
  refine h.keeps (fun s => s.clock = a.clock) ?_ rfl
  intro s t h hs; cases h <;> simpa using hs

theorem ElEnd.st {sh : Shape} {a b : SB} (h : ElEnd sh a b) (x : Nat) :
    b.st x = a.st x ∨ ((a.st x = .running ∨ a.st x = .standby) ∧ b.st x = .complete) ∨
    (a.st x = .running ∧ b.st x = .standby) ∨ (RepAbove sh x ∧ b.st x = .init) := by
  cases h with
  | stop e _ h1 => rw [setState_st]; split <;> simp_all
  | endC e _ h1 h2 => rw [setState_st]; split <;> simp_all
  | endS e _ h1 h2 => rw [setState_st]; split <;> simp_all
  | reset e _ h1 =>
    show upd a.st e .init x = _ ∨ _
    simp only [upd_apply]; split
    · next h => subst h; simp [h1]
    · simp

theorem EndSteps.init {sh : Shape} {a b : SB} (h : EndSteps sh a b) (x : Nat)
    (hx : a.st x = .init) : b.st x = .init := by
  refine h.keeps (fun s => s.st x = .init) ?_ hx
  intro s t h hs; have := h.st x; grind

theorem EndSteps.notRunning {sh : Shape} {a b : SB} (h : EndSteps sh a b) (x : Nat)
    (hx : a.st x ≠ .running) : b.st x ≠ .running := by
  refine h.keeps (fun s => s.st x ≠ .running) ?_ hx
  intro s t h hs; have := h.st x; grind

/-- Neither standby nor running. -/
def Quiet (s : SB) (x : Nat) : Prop := s.st x = .init ∨ s.st x = .complete

theorem EndSteps.quiet {sh : Shape} {a b : SB} (h : EndSteps sh a b) (x : Nat)
    (hx : Quiet a x) : Quiet b x := by
  refine h.keeps (fun s => Quiet s x) ?_ hx
  intro s t h hs; have := h.st x; unfold Quiet at *; grind

/-- Without repeatable ancestors complete is final. -/
theorem EndSteps.complete {sh : Shape} {a b : SB} (h : EndSteps sh a b) (x : Nat)
    (hr : ¬ RepAbove sh x) (hx : a.st x = .complete) : b.st x = .complete := by
  refine h.keeps (fun s => s.st x = .complete) ?_ hx
  intro s t h hs; have := h.st x; grind

theorem EndSteps.notInit {sh : Shape} {a b : SB} (h : EndSteps sh a b) (x : Nat)
    (hr : ¬ RepAbove sh x) (hx : a.st x ≠ .init) : b.st x ≠ .init := by
  refine h.keeps (fun s => s.st x ≠ .init) ?_ hx
  intro s t h hs; have := h.st x; grind

theorem EndSteps.standby {sh : Shape} {a b : SB} (h : EndSteps sh a b) (x : Nat)
    (hx : a.st x ≠ .standby) (hb : b.st x = .standby) :
    Rep sh x ∧ (sh.maxExec x = -1 ∨ (b.num x : Int) < sh.maxExec x) := by
  refine h.keeps (fun s => s.st x = .standby →
    Rep sh x ∧ (sh.maxExec x = -1 ∨ (s.num x : Int) < sh.maxExec x)) ?_ (fun h => absurd h hx) hb
  intro s t h hs ht
  cases h with
  | stop e _ h1 => rw [setState_st] at ht; split at ht <;> simp_all
  | endC e _ h1 h2 => rw [setState_st] at ht; split at ht <;> simp_all
  | endS e _ h1 h2 h3 =>
    rw [setState_st] at ht; split at ht
    · next h => subst h; simpa using ⟨h2, h3⟩
    · simpa using hs ht
  | reset e _ h1 =>
    have ht' : upd s.st e .init x = .standby := ht
    simp only [upd_apply] at ht'; split at ht'
    · simp at ht'
    · exact hs ht'

theorem resetE_steps {sh : Shape} (wf : sh.WF) : ∀ (f e : Nat) (s s' : SB),
    RepAbove sh e → resetE sh f e s = some s' → EndSteps sh s s' := by
  intro f
  induction f with
  | zero => intro e s s' _ h; simp [resetE] at h
  | succ f ih =>
    intro e s s' hr h
    simp only [resetE, bind, Option.bind_eq_some_iff] at h
    obtain ⟨s1, h1, h2⟩ := h
    simp only [Option.some.injEq] at h2; subst h2
    refine .tail (foldlM_rel (EndSteps sh) (fun _ => .refl) (fun _ _ _ => .trans) _ _ _ ?_ h1)
      (.reset e s1 hr)
    intro a c b hc hb
    refine ih c a b ?_ hb
    obtain ⟨r, h1, h2, h3⟩ := hr
    refine ⟨r, h1, h2.trans (.child ((wf.tree _ _).1 hc)), ?_⟩
    intro hrc
    have l1 := h2.level wf
    have l2 := wf.level _ _ ((wf.tree _ _).1 hc)
    rw [hrc] at l1; omega

theorem resetChildren_steps {sh : Shape} (wf : sh.WF) (f e : Nat) (s s' : SB) (hr : Rep sh e)
    (h : (sh.children e).foldlM (fun s c => resetE sh f c s) s = some s') : EndSteps sh s s' := by
  refine foldlM_rel (EndSteps sh) (fun _ => .refl) (fun _ _ _ => .trans) _ _ _ ?_ h
  intro a c b hc hb
  have hp := (wf.tree _ _).1 hc
  refine resetE_steps wf f c a b ⟨e, hr, .child hp, ?_⟩ hb
  intro h
  have l2 := wf.level _ _ hp
  rw [h] at l2; omega

/-- The tree invariant; `X` is an element exempt from the last clause while its children are being
dealt with. -/
structure Inv (sh : Shape) (X : Option Nat) (s : SB) : Prop where
  /-- running or standby below running only -/
  act : ∀ c p, sh.parent c = some p → (s.st c = .running ∨ s.st c = .standby) → s.st p = .running
  /-- everything below init or standby is init -/
  idle : ∀ c p, sh.parent c = some p → (s.st p = .init ∨ s.st p = .standby) → s.st c = .init
  /-- actions are never standby -/
  leaf : ∀ a, sh.etype a = .action → s.st a ≠ .standby
  /-- a running parent has a child that is not complete -/
  live : ∀ p, X ≠ some p → sh.etype p ≠ .storyBoard → sh.children p ≠ [] → s.st p = .running →
    ∃ c ∈ sh.children p, s.st c ≠ .complete

theorem Inv.weaken {sh : Shape} {s : SB} (h : Inv sh none s) (X : Option Nat) : Inv sh X s :=
  ⟨h.act, h.idle, h.leaf, fun p _ => h.live p (by simp)⟩

theorem Inv.strengthen {sh : Shape} {s : SB} {e : Nat} (h : Inv sh (some e) s)
    (he : sh.etype e ≠ .storyBoard → sh.children e ≠ [] → s.st e = .running →
      ∃ c ∈ sh.children e, s.st c ≠ .complete) : Inv sh none s := by
  refine ⟨h.act, h.idle, h.leaf, fun p _ => ?_⟩
  by_cases hp : p = e
  · subst hp; exact he
  · exact h.live p (by simp; exact fun h => hp h.symm)

/-- Everything below init or standby is init. -/
theorem Inv.idle_sub {sh : Shape} {X : Option Nat} {s : SB} (h : Inv sh X s) {e x : Nat}
    (hs : Sub sh e x) (he : s.st e = .init ∨ s.st e = .standby) : x ≠ e → s.st x = .init := by
  induction hs with
  | refl => intro h; exact absurd rfl h
  | @step c p hp hsp ih =>
    intro _
    by_cases hpe : p = e
    · subst hpe; exact h.idle _ _ hp he
    · exact h.idle _ _ hp (.inl (ih hpe))

/-- Above a running element everything runs. -/
theorem Inv.act_sub {sh : Shape} {X : Option Nat} {s : SB} (h : Inv sh X s) {e x : Nat}
    (hs : Sub sh e x) (he : s.st x = .running) : s.st e = .running := by
  induction hs with
  | refl => exact he
  | @step c p hp _ ih => exact ih (h.act _ _ hp (.inl he))

theorem live_transfer {sh : Shape} {X Y : Option Nat} {s t : SB} (h : Inv sh X s)
    (hst : ∀ p, Y ≠ some p → t.st p = .running → X ≠ some p ∧ s.st p = .running)
    (hc : ∀ p, Y ≠ some p → t.st p = .running → ∀ c, sh.parent c = some p → t.st c = .complete →
      s.st c = .complete) (wf : sh.WF) :
    ∀ p, Y ≠ some p → sh.etype p ≠ .storyBoard → sh.children p ≠ [] → t.st p = .running →
    ∃ c ∈ sh.children p, t.st c ≠ .complete := by
  intro p hY h1 h2 h3
  obtain ⟨hX, hr⟩ := hst p hY h3
  obtain ⟨c, hcm, hcc⟩ := h.live p hX h1 h2 hr
  exact ⟨c, hcm, fun hh => hcc (hc p hY h3 c ((wf.tree _ _).1 hcm) hh)⟩

/-- Completing a running or standby element whose children are quiet. -/
theorem Inv.setComplete {sh : Shape} (wf : sh.WF) {X : Option Nat} {s : SB} {e : Nat} (tr)
    (h : Inv sh X s) (hX : X = none ∨ X = some e) (he : s.st e = .running ∨ s.st e = .standby)
    (hc : ∀ c, sh.parent c = some e → Quiet s c) :
    Inv sh (sh.parent e) (setState e tr .complete s) := by
  refine ⟨?_, ?_, ?_, ?_⟩
  · intro c p hp hcs
    simp only [setState_st] at hcs ⊢
    have hce : c ≠ e := by rintro rfl; simp at hcs
    simp only [hce, if_false] at hcs
    by_cases hpe : p = e
    · subst hpe; have := hc c hp; unfold Quiet at this; grind
    · simp only [hpe, if_false]; exact h.act c p hp hcs
  · intro c p hp hps
    simp only [setState_st] at hps ⊢
    have hpe : p ≠ e := by rintro rfl; simp at hps
    simp only [hpe, if_false] at hps
    have := h.idle c p hp hps
    have hce : c ≠ e := by rintro rfl; grind
    simp [hce, this]
  · intro a ha
    simp only [setState_st]
    split
    · simp
    · exact h.leaf a ha
  · refine live_transfer h ?_ ?_ wf
    · intro p hY hp
      simp only [setState_st] at hp
      have hpe : p ≠ e := by rintro rfl; simp at hp
      simp only [hpe, if_false] at hp
      refine ⟨?_, hp⟩
      rcases hX with rfl | rfl
      · simp
      · simp; exact fun h => hpe h.symm
    · intro p hY hp c hpc hcc
      simp only [setState_st] at hcc
      have hce : c ≠ e := by rintro rfl; exact hY hpc
      simpa [hce] using hcc

open Classical in
/-- Putting a running repeatable element back to standby and resetting everything below it. -/
theorem Inv.setStandby {sh : Shape} (wf : sh.WF) {X : Option Nat} {s s' : SB} {e f : Nat} (tr)
    (h : Inv sh X s) (hX : X = none ∨ X = some e) (he : s.st e = .running ∨ s.st e = .standby)
    (hr : Rep sh e)
    (hs : (sh.children e).foldlM (fun s c => resetE sh f c s) (setState e tr .standby s) = some s') :
    Inv sh none s' ∧ s'.st e = .standby := by
  obtain ⟨_, _, h3, h4, _⟩ := resetChildren_spec wf f e _ s' hs
  have hst : ∀ x, s'.st x = if Sub sh e x ∧ x ≠ e then .init else if x = e then .standby
      else s.st x := by
    intro x
    by_cases hx : Sub sh e x ∧ x ≠ e
    · simp only [hx, and_self, if_true, ne_eq, not_false_eq_true]; exact h3 x hx.1 hx.2
    · have : ¬ Sub sh e x ∨ x = e := by
        by_cases h1 : Sub sh e x
        · right; by_cases h2 : x = e
          · exact h2
          · exact absurd ⟨h1, h2⟩ hx
        · exact .inl h1
      rw [h4 x this, setState_st]
      simp [hx]
  have hse : s'.st e = .standby := by rw [hst]; simp
  refine ⟨⟨?_, ?_, ?_, ?_⟩, hse⟩
  · intro c p hp hcs
    have hcp : c ≠ p := by rintro rfl; have := wf.level _ _ hp; omega
    rw [hst] at hcs ⊢
    by_cases hc : Sub sh e c ∧ c ≠ e
    · simp [hc] at hcs
    · have hnp : ¬ Sub sh e p := by
        intro hep
        have : Sub sh e c := .step hp hep
        have hce : c = e := Classical.byContradiction fun h => hc ⟨this, h⟩
        subst hce
        have l1 := hep.level wf; have l2 := wf.level _ _ hp; omega
      have hpe : p ≠ e := by rintro rfl; exact hnp .refl
      simp only [hnp, hpe, false_and, if_false]
      simp only [hc, if_false] at hcs
      by_cases hce : c = e
      · subst hce; exact h.act _ _ hp he
      · simp only [hce, if_false] at hcs
        exact h.act _ _ hp hcs
  · intro c p hp hps
    rw [hst] at hps ⊢
    by_cases hpe : Sub sh e p
    · have hce : c ≠ e := by
        rintro rfl
        have l1 := hpe.level wf; have l2 := wf.level _ _ hp; omega
      have hsc : Sub sh e c := .step hp hpe
      simp [hsc, hce]
    · have hpe' : p ≠ e := by rintro rfl; exact hpe .refl
      simp only [hpe, hpe', false_and, if_false] at hps
      have := h.idle _ _ hp hps
      have hce : c ≠ e := by rintro rfl; grind
      simp only [hce, if_false, this]
      split <;> rfl
  · intro a ha
    rw [hst]
    split
    · simp
    · split
      · next h => subst h; unfold Rep at hr; grind
      · exact h.leaf a ha
  · refine live_transfer h ?_ ?_ wf
    · intro p _ hp
      rw [hst] at hp
      have : ¬ (Sub sh e p ∧ p ≠ e) := by intro hh; simp [hh] at hp
      simp only [this, if_false] at hp
      have hpe : p ≠ e := by rintro rfl; simp at hp
      simp only [hpe, if_false] at hp
      refine ⟨?_, hp⟩
      rcases hX with rfl | rfl
      · simp
      · simp; exact fun h => hpe h.symm
    · intro p _ hp c hpc hcc
      rw [hst] at hcc
      have : ¬ (Sub sh e c ∧ c ≠ e) := by intro hh; simp [hh] at hcc
      simp only [this, if_false] at hcc
      have hce : c ≠ e := by rintro rfl; simp at hcc
      simpa [hce] using hcc

/-- What `End` may be called on: children are complete, or actions. -/
def EndPre (sh : Shape) (e : Nat) (s : SB) : Prop :=
  ∀ c, sh.parent c = some e → s.st c = .complete ∨ sh.etype c = .action

/-- The effect of `endSelf`. -/
theorem endSelf_inv {sh : Shape} (wf : sh.WF) {f e : Nat} {s s' : SB} (h : Inv sh (some e) s)
    (hns : s.st e = .standby → Rep sh e ∧ (sh.maxExec e = -1 ∨ (s.num e : Int) < sh.maxExec e))
    (hc : ∀ c, sh.parent c = some e → Quiet s c)
    (hs : endSelf sh f e s = some s') :
    Inv sh (sh.parent e) s' ∧ EndSteps sh s s' ∧ s'.st e ≠ .running := by
  unfold endSelf at hs
  by_cases hr : s.st e = .running ∨ s.st e = .standby
  · simp only [hr, if_true] at hs
    by_cases hrep : Rep sh e
    · have hrep' : sh.etype e = .maneuverGroup ∨ sh.etype e = .event := hrep
      simp only [hrep', if_true] at hs
      split at hs
      · next hm =>
        cases hs
        have hr' : s.st e = .running := by
          rcases hr with hr | hr
          · exact hr
          · have := (hns hr).2; omega
        refine ⟨h.setComplete wf _ (.inr rfl) hr hc, .one (.endC e s hr' fun _ => hm), ?_⟩
        simp [setState_st]
      · next hm =>
        obtain ⟨i1, i2⟩ := h.setStandby wf _ (.inr rfl) hr hrep hs
        refine ⟨i1.weaken _, ?_, by simp [i2]⟩
        refine EndSteps.trans ?_ (resetChildren_steps wf f e _ _ hrep hs)
        rcases hr with hr | hr
        · refine .one (.endS e s hr hrep ?_)
          by_cases h1 : sh.maxExec e = -1
          · exact .inl h1
          · right
            have : ¬ ((s.num e : Int) ≥ sh.maxExec e) := fun h2 => hm ⟨h1, h2⟩
            omega
        · simp only [setState, hr, if_true]; exact .refl
    · have hrep' : ¬ (sh.etype e = .maneuverGroup ∨ sh.etype e = .event) := hrep
      simp only [hrep', if_false] at hs
      cases hs
      have hr' : s.st e = .running := by
        rcases hr with hr | hr
        · exact hr
        · exact absurd (hns hr).1 hrep
      refine ⟨h.setComplete wf _ (.inr rfl) hr hc,
        .one (.endC e s hr' fun h => absurd h hrep), ?_⟩
      simp [setState_st]
  · simp only [hr, if_false] at hs
    cases hs
    have : s.st e ≠ .running := fun h => hr (.inl h)
    exact ⟨(h.strengthen (fun _ _ h => absurd h this)).weaken _, .refl, this⟩

theorem allChildrenComplete_iff {sh : Shape} (wf : sh.WF) {p : Nat} {s : SB} :
    allChildrenComplete sh p s = true ↔ ∀ c, sh.parent c = some p → s.st c = .complete := by
  simp only [allChildrenComplete, List.all_eq_true, decide_eq_true_eq]
  exact ⟨fun h c hc => h c ((wf.tree _ _).2 hc), fun h c hc => h c ((wf.tree _ _).1 hc)⟩

/-- Propagation to the parent, given that `End` of the parent behaves. -/
theorem propagate_inv {sh : Shape} (wf : sh.WF) {f e p : Nat} {s s' : SB}
    (hp : sh.parent e = some p) (hI : Inv sh (some p) s)
    (ih : Inv sh (some p) s → EndPre sh p s → s.st p ≠ .standby → endE sh f p s = some s' →
      Inv sh none s' ∧ EndSteps sh s s' ∧ s'.st p ≠ .running)
    (h : (if sh.etype p ≠ .storyBoard ∧ s.st p ≠ .complete ∧ allChildrenComplete sh p s = true then
            endE sh f p s else some s) = some s') :
    Inv sh none s' ∧ EndSteps sh s s' := by
  split at h
  · next hc =>
    have hall := (allChildrenComplete_iff wf).1 hc.2.2
    obtain ⟨i1, i2, _⟩ := ih hI (fun c hc => .inl (hall c hc))
      (by
        intro hst
        have := hI.idle e p hp (.inr hst)
        rw [hall e hp] at this; simp at this) h
    exact ⟨i1, i2⟩
  · next hc =>
    cases h
    refine ⟨hI.strengthen ?_, .refl⟩
    intro h1 h2 h3
    have : ¬ allChildrenComplete sh p s = true := fun h4 => hc ⟨h1, by simp [h3], h4⟩
    simpa [allChildrenComplete] using this

/-- `End` keeps the invariant and consists of legal elementary steps. -/
theorem endE_inv {sh : Shape} (wf : sh.WF) : ∀ (f e : Nat) (s s' : SB), Inv sh (some e) s →
    EndPre sh e s → s.st e ≠ .standby → endE sh f e s = some s' →
    Inv sh none s' ∧ EndSteps sh s s' ∧ s'.st e ≠ .running := by
  intro f
  induction f with
  | zero => intro e s s' _ _ _ h; simp [endE] at h
  | succ f ih =>
    intro e s s' hI hP hns h
    rw [endE] at h
    split at h
    · next hc =>
      cases h
      exact ⟨hI.strengthen (fun _ _ h => by simp [hc] at h), .refl, by simp [hc]⟩
    simp only [bind, Option.bind_eq_some_iff] at h
    obtain ⟨s1, h1, h2⟩ := h
    -- the loop over the children
    have hloop := foldlM_post (P := fun t => Inv sh (some e) t ∧ EndPre sh e t ∧ EndSteps sh s t)
      (Q := fun c t => t.st c ≠ .running) (sh.children e) s s1
      (by
        intro a c b hc ⟨ha, hpa, hsa⟩ hb
        have hpc := (wf.tree _ _).1 hc
        by_cases hrun : a.st c = .running
        · simp only [hrun, if_true] at hb
          have hact : sh.etype c = .action := by
            rcases hpa c hpc with h | h
            · simp [hrun] at h
            · exact h
          have hev := action_parent wf hact hpc
          have hnil : sh.children c = [] := action_leaf wf hact
          obtain ⟨i1, i2, i3⟩ := ih c a b
            ((ha.strengthen (fun _ _ _ => ⟨c, hc, by simp [hrun]⟩)).weaken _)
            (by intro d hd; have := (wf.tree d c).2 hd; simp [hnil] at this)
            (by simp [hrun]) hb
          refine ⟨⟨i1.weaken _, ?_, hsa.trans i2⟩, i3⟩
          intro d hd; exact .inr (child_action wf hev hd)
        · simp only [hrun, if_false] at hb
          cases hb
          exact ⟨⟨ha, hpa, hsa⟩, hrun⟩)
      (by
        intro a c b d hc hd ⟨ha, hpa, hsa⟩ hb hq
        have hpc := (wf.tree _ _).1 hc
        by_cases hrun : a.st c = .running
        · simp only [hrun, if_true] at hb
          have hact : sh.etype c = .action := by
            rcases hpa c hpc with h | h
            · simp [hrun] at h
            · exact h
          have hnil : sh.children c = [] := action_leaf wf hact
          obtain ⟨i1, i2, i3⟩ := ih c a b
            ((ha.strengthen (fun _ _ _ => ⟨c, hc, by simp [hrun]⟩)).weaken _)
            (by intro d hd; have := (wf.tree d c).2 hd; simp [hnil] at this)
            (by simp [hrun]) hb
          exact i2.notRunning d hq
        · simp only [hrun, if_false] at hb
          cases hb; exact hq)
      h1 ⟨hI, hP, .refl⟩
    obtain ⟨⟨hI1, hP1, hS1⟩, hQ1⟩ := hloop
    have hquiet : ∀ c, sh.parent c = some e → Quiet s1 c := by
      intro c hc
      have h1 := hQ1 c ((wf.tree _ _).2 hc)
      rcases hP1 c hc with h2 | h2
      · exact .inr h2
      · have h3 := hI1.leaf c h2
        unfold Quiet
        cases hh : s1.st c <;> simp_all
    have hns1 := fun h => hS1.standby e hns h
    split at h2
    · next hc =>
      cases h2
      exact ⟨hI1.strengthen (fun _ _ h => by simp [hc] at h), hS1, by simp [hc]⟩
    simp only [Option.bind_eq_some_iff] at h2
    obtain ⟨s2, h3, h4⟩ := h2
    obtain ⟨i1, i2, i3⟩ := endSelf_inv wf hI1 hns1 hquiet h3
    have hS2 := hS1.trans i2
    cases hp : sh.parent e with
    | none =>
      simp only [hp] at h4 i1
      cases h4
      exact ⟨i1, hS2, i3⟩
    | some p =>
      simp only [hp] at h4 i1
      obtain ⟨j1, j2⟩ := propagate_inv wf hp i1 (ih p s2 s') h4
      exact ⟨j1, hS2.trans j2, j2.notRunning e i3⟩

end Verif.Storyboard
