import Verif.Storyboard.History
/-
Properties C01-C08 of storyboard execution.
-/
namespace Verif.Storyboard

/-- States a scenario can be in between two calls of the engine: a parsed storyboard is started
(ScenarioEngine.cpp:140-142) and then stepped any number of times (:160); a controller may end an
action from outside (ControllerRel2Abs.cpp) and externally injected actions may be stepped
(ScenarioEngine.cpp:178-191). The oracle supplies arbitrary trigger values and action outcomes. -/
inductive Reach (sh : Shape) (orc : Oracle) : SB → Prop
  | start {f : Nat} {s : SB} : sbStart sh orc f SB.fresh = some s → Reach sh orc s
  | step {f : Nat} {s s' : SB} : Reach sh orc s → sbStep sh orc f s = some s' → Reach sh orc s'
  | endAction {f a : Nat} {s s' : SB} : Reach sh orc s → sh.etype a = .action →
      endE sh f a s = some s' → Reach sh orc s'
  | inject {f a : Nat} {s s' : SB} : Reach sh orc s → sh.etype a = .action → sh.parent a = none →
      injectedStep sh orc f a s = some s' → Reach sh orc s'

theorem Reach.inv {sh : Shape} (wf : sh.WF) {orc : Oracle} {s : SB} (h : Reach sh orc s) :
    Inv sh none s ∧ Steps sh SB.fresh s := by
  induction h with
  | start h => exact sbStart_inv wf h
  | step _ h ih =>
    obtain ⟨k1, k2⟩ := sbStep_inv wf ih.1 h
    exact ⟨k1, ih.2.trans k2⟩
  | endAction _ ha h ih =>
    obtain ⟨k1, k2, _⟩ := endAction_inv wf ih.1 ha h
    exact ⟨k1, ih.2.trans k2.steps⟩
  | inject _ ha hp h ih =>
    obtain ⟨k1, k2⟩ := injectedStep_inv wf ih.1 ha hp h
    exact ⟨k1, ih.2.trans k2⟩

theorem Reach.hist {sh : Shape} (wf : sh.WF) {orc : Oracle} {s : SB} (h : Reach sh orc s) :
    Hist sh s :=
  (h.inv wf).2.keeps (Hist sh) (fun _ _ h hs => h.hist hs) (.fresh sh)

/-! ## C01 Legal life-cycle transitions -/

/-- The history explains the states: every element is in the state its newest entry says. -/
theorem state_is_history {sh : Shape} (wf : sh.WF) {orc : Oracle} {s : SB} (h : Reach sh orc s)
    (x : Nat) : s.st x = stateAfter s.log x := (h.hist wf).st x

/-- C01: every announced change starts from the state the element really was in and is one of the
legal transitions. -/
theorem announcements_legal {sh : Shape} (wf : sh.WF) {orc : Oracle} {s : SB} (h : Reach sh orc s)
    {post pre : List Entry} {e : Nat} {old new : St} {tr : Transition}
    (hl : s.log = post ++ .change e old tr new :: pre) :
    stateAfter pre e = old ∧ LegalChange sh e old tr new := by
  have := (h.hist wf).log
  rw [hl] at this
  exact ⟨this.entry.1, this.entry.2.1⟩

/-- C01: an element is silently put back to init only if it lies below an event or a maneuver
group (which is being re-executed). -/
theorem reset_only_below_repeatable {sh : Shape} (wf : sh.WF) {orc : Oracle} {s : SB}
    (h : Reach sh orc s) {post pre : List Entry} {e : Nat} (hl : s.log = post ++ .reset e :: pre) :
    ∃ a, (sh.etype a = .maneuverGroup ∨ sh.etype a = .event) ∧ Sub sh a e ∧ a ≠ e := by
  have := (h.hist wf).log
  rw [hl] at this
  exact this.entry

theorem stateAfter_mid {e : Nat} {old : St} {tr : Transition} {new : St} {pre : List Entry} :
    ∀ mid : List Entry, (∀ o t n, .change e o t n ∉ mid) → .reset e ∉ mid →
      stateAfter (mid ++ .change e old tr new :: pre) e = new := by
  intro mid
  induction mid with
  | nil => intro _ _; simp [stateAfter]
  | cons a mid ih =>
    intro h1 h2
    have ih' := ih (fun o t n hh => h1 o t n (by simp [hh])) (fun hh => h2 (by simp [hh]))
    cases a with
    | change x o t n =>
      have : e ≠ x := by rintro rfl; exact h1 o t n (by simp)
      simp [stateAfter, this, ih']
    | reset x =>
      have : e ≠ x := by rintro rfl; exact h2 (by simp)
      simp [stateAfter, this, ih']
    | trig x => simp [stateAfter, ih']

/-- Index-free form: the oldest change of `e` after a given point. -/
theorem exists_first_change {e : Nat} : ∀ (mid : List Entry),
    (∃ o t n, Entry.change e o t n ∈ mid) → Entry.reset e ∉ mid →
    ∃ later o t n between, mid = later ++ .change e o t n :: between ∧
      (∀ o t n, Entry.change e o t n ∉ between) ∧ Entry.reset e ∉ between := by
  intro mid
  induction mid with
  | nil => intro h; simp at h
  | cons a mid ih =>
    intro h1 h2
    have h2' : Entry.reset e ∉ mid := fun hh => h2 (by simp [hh])
    by_cases hm : ∃ o t n, Entry.change e o t n ∈ mid
    · obtain ⟨later, o, t, n, btw, h3, h4⟩ := ih hm h2'
      exact ⟨a :: later, o, t, n, btw, by simp [h3], h4⟩
    · obtain ⟨o, t, n, ho⟩ := h1
      rcases List.mem_cons.1 ho with rfl | ho
      · exact ⟨[], o, t, n, mid, rfl, fun o t n hh => hm ⟨o, t, n, hh⟩, h2'⟩
      · exact absurd ⟨o, t, n, ho⟩ hm

/-- C01: after announcing complete an element announces nothing until it is put back to init by the
re-execution of an enclosing event or maneuver group. -/
theorem complete_announces_nothing {sh : Shape} (wf : sh.WF) {orc : Oracle} {s : SB}
    (h : Reach sh orc s) {mid post pre : List Entry} {e : Nat} {old o n : St} {tr t : Transition}
    (hl : s.log = post ++ .change e o t n :: (mid ++ .change e old tr .complete :: pre)) :
    .reset e ∈ mid := by
  apply Classical.byContradiction
  intro hr
  -- the first change of `e` after the completion would start from complete
  have hr' : Entry.reset e ∉ Entry.change e o t n :: mid := by simpa using hr
  obtain ⟨later, o', t', n', btw, h1, h2, h3⟩ :=
    exists_first_change (e := e) (Entry.change e o t n :: mid) ⟨o, t, n, by simp⟩ hr'
  have hl' : s.log = (post ++ later) ++ .change e o' t' n' ::
      (btw ++ .change e old tr .complete :: pre) := by
    rw [hl, ← List.cons_append, h1]; simp
  obtain ⟨h4, h5⟩ := announcements_legal wf h hl'
  rw [stateAfter_mid btw h2 h3] at h4
  subst h4
  cases h5

/-- C01: without an enclosing event or maneuver group (storyboard, stories, acts and the groups
themselves) complete is final. -/
theorem complete_final {sh : Shape} (wf : sh.WF) {orc : Oracle} {f : Nat} {s s' : SB}
    (h : Reach sh orc s) {x : Nat} (hx : sh.etype x = .storyBoard ∨ sh.etype x = .story ∨
      sh.etype x = .act ∨ sh.etype x = .maneuverGroup) (hc : s.st x = .complete)
    (hs : sbStep sh orc f s = some s') : s'.st x = .complete := by
  refine (sbStep_inv wf (h.inv wf).1 hs).2.complete x (not_repAbove wf ?_) hc
  rcases hx with h | h | h | h <;> rw [h] <;> decide

/-! ## C02 Maximum execution count -/

/-- C02: at every moment of the history, an event or maneuver group with maximum n ≥ 1 has entered
running at most n times since it was last put back to init. -/
theorem max_executions {sh : Shape} (wf : sh.WF) {orc : Oracle} {s : SB} (h : Reach sh orc s)
    {e : Nat} (he : sh.etype e = .maneuverGroup ∨ sh.etype e = .event) {n : Nat} (hn : 1 ≤ n)
    (hm : sh.maxExec e = n) {post pre : List Entry} (hl : s.log = post ++ pre) :
    runs e pre ≤ n := by
  have hc : Cnt sh e s := (h.inv wf).2.keeps (Cnt sh e) (fun _ _ h hs => h.cnt e he hs) (.fresh sh e)
  have := hc.bound (by omega) pre ⟨post, hl.symm⟩
  unfold runLimit at this
  omega

/-- C02: a maneuver group is never put back to init, so the bound holds over the whole scenario. -/
theorem max_executions_group {sh : Shape} (wf : sh.WF) {orc : Oracle} {s : SB} (h : Reach sh orc s)
    {e : Nat} (he : sh.etype e = .maneuverGroup) {n : Nat} (hn : 1 ≤ n) (hm : sh.maxExec e = n) :
    (s.log.filter (fun t => match t with
      | .change x _ _ new => x = e ∧ new = .running
      | _ => false)).length ≤ n := by
  have hno : .reset e ∉ s.log := by
    intro hh
    obtain ⟨a, b, hab⟩ := List.append_of_mem hh
    have hl := (h.hist wf).log
    rw [hab] at hl
    exact not_repAbove wf (by rw [he]; decide) hl.entry
  have := max_executions wf h (.inl he) hn hm (post := []) (pre := s.log) rfl
  refine Nat.le_trans (Nat.le_of_eq ?_) this
  clear hm this h
  revert hno
  generalize s.log = l
  intro hno
  induction l with
  | nil => rfl
  | cons a l ih =>
    have ih' := ih (fun hh => hno (by simp [hh]))
    cases a with
    | change x o t n => simp only [List.filter_cons, runs]; split <;> simp_all
    | reset x =>
      have : x ≠ e := by rintro rfl; simp at hno
      simp [runs, this]; simpa using ih'
    | trig x => simp [runs]; simpa using ih'

/-! ## C41 Executions granted -/

/-- C41 (part): an event or maneuver group with a maximum does not complete by ending before it has
been executed that often since the scenario was loaded. For maneuver groups this is the full
property; for an event in a re-executed group the executions in earlier runs of the group are
wrongly included, see `Ex.reexecution_count_witness`. -/
theorem executions_granted_partial {sh : Shape} (wf : sh.WF) {orc : Oracle} {s : SB}
    (h : Reach sh orc s) {e : Nat} (he : sh.etype e = .maneuverGroup ∨ sh.etype e = .event)
    {post pre : List Entry} {old : St} (hl : s.log = post ++ .change e old .end .complete :: pre) :
    sh.maxExec e ≤ totalRuns e pre := by
  have hc := (h.inv wf).2.keeps (fun s => totalRuns e s.log = s.num e ∧ DoneOK sh e s.log)
    (fun _ _ h hs => h.done e he hs) ⟨rfl, trivial⟩
  have h2 := hc.2
  rw [hl] at h2
  exact h2.entry

/-! ## C03 Nothing runs below an element that is not running -/

/-- C03: everything above a running (or waiting) element runs. -/
theorem running_ancestors {sh : Shape} (wf : sh.WF) {orc : Oracle} {s : SB} (h : Reach sh orc s)
    {a x : Nat} (hs : Sub sh a x) (hx : s.st x = .running) : s.st a = .running :=
  (h.inv wf).1.act_sub hs hx

theorem standby_parent_running {sh : Shape} (wf : sh.WF) {orc : Oracle} {s : SB}
    (h : Reach sh orc s) {x p : Nat} (hp : sh.parent x = some p) (hx : s.st x = .standby) :
    s.st p = .running := (h.inv wf).1.act _ _ hp (.inr hx)

/-! ## C04 Stopping an element silences its whole subtree -/

/-- C04: after `Stop` of any element nothing at or below it is running or standby, whatever
executions are left. -/
theorem stop_silences {sh : Shape} (wf : sh.WF) {orc : Oracle} {f e : Nat} {s s' : SB}
    (h : Reach sh orc s) (hs : stopE sh f e s = some s') {x : Nat} (hx : Sub sh e x) :
    s'.st x = .init ∨ s'.st x = .complete :=
  (stopE_inv wf f e s s' (h.inv wf).1 hs).2.2 x hx

/-- C04: a storyboard, story, act or maneuver group that was standby or running is complete after
`Stop`. -/
theorem stop_completes {sh : Shape} (wf : sh.WF) {orc : Oracle} {f e : Nat} {s s' : SB}
    (h : Reach sh orc s) (hs : stopE sh f e s = some s')
    (he : sh.etype e = .storyBoard ∨ sh.etype e = .story ∨ sh.etype e = .act ∨
      sh.etype e = .maneuverGroup)
    (hr : s.st e = .running ∨ s.st e = .standby) : s'.st e = .complete := by
  obtain ⟨_, h2, h3⟩ := stopE_inv wf f e s s' (h.inv wf).1 hs
  rcases h3 e .refl with h4 | h4
  · exfalso
    refine h2.notInit e (not_repAbove wf ?_) ?_ h4
    · rcases he with h | h | h | h <;> rw [h] <;> decide
    · rcases hr with h | h <;> simp [h]
  · exact h4

/-- C04, as seen from outside: when the stop trigger of a running act or storyboard fires during a
step, then at the end of that step, and forever after, it is complete and nothing below it is
running or standby. (`s` is the state in which the trigger is evaluated.) -/
theorem stop_trigger_silences {sh : Shape} (wf : sh.WF) {orc : Oracle} {f e : Nat} {s s' : SB}
    (h : Inv sh none s) (he : sh.etype e = .storyBoard ∨ sh.etype e = .act)
    (hr : s.st e = .running) (hst : sh.hasStop e = true) (hv : orc.trig s.clock = true)
    (hs : evalTriggers sh orc f e s = some s') :
    s'.st e = .complete ∧ ∀ t, Steps sh s' t → Inv sh none t →
      t.st e = .complete ∧ ∀ x, Sub sh e x → t.st x = .init ∨ t.st x = .complete := by
  have hrep : ¬ RepAbove sh e := not_repAbove wf (by rcases he with h | h <;> rw [h] <;> decide)
  have hc : s'.st e = .complete := by
    cases f with
    | zero => simp [evalTriggers] at hs
    | succ f =>
      simp only [evalTriggers, bind, Option.bind_eq_some_iff] at hs
      obtain ⟨s1, h1, s2, h2, h3⟩ := hs
      have hI' : Inv sh none { s with clock := s.clock + 1 } := h.congr rfl
      have hc1 : s1.st e = .complete := by
        unfold evalStop at h1
        simp only [hr, hst, and_self, if_true, hv, bind, Option.bind_eq_some_iff] at h1
        obtain ⟨t, h4, h5⟩ := h1
        obtain ⟨i1, i2, i3⟩ := stopE_inv wf f e _ _ hI' h4
        have hct : t.st e = .complete := by
          rcases i3 e .refl with h6 | h6
          · exact absurd h6 (i2.notInit e hrep (by simp [hr]))
          · exact h6
        split at h5
        · obtain ⟨j1, j2, j3⟩ := stopE_inv wf f e _ _ i1 h5
          exact j2.complete e hrep hct
        · cases h5; exact hct
      unfold evalStart at h2
      simp only [hc1, reduceCtorEq, if_false] at h2
      cases h2
      simp only [hc1, reduceCtorEq, if_false] at h3
      cases h3; exact hc1
  refine ⟨hc, fun t ht hIt => ?_⟩
  have htc := ht.complete e hrep hc
  refine ⟨htc, fun x hx => ?_⟩
  induction hx with
  | refl => exact .inr htc
  | @step c p hp hsp ih =>
    cases hh : t.st c with
    | init => exact .inl rfl
    | complete => exact .inr rfl
    | running =>
      have := hIt.act _ _ hp (.inl hh)
      rcases ih with h | h <;> simp [h] at this
    | standby =>
      have := hIt.act _ _ hp (.inr hh)
      rcases ih with h | h <;> simp [h] at this

/-! ## C05 Completion propagates upwards -/

/-- C05: a running story, act, maneuver group, maneuver or event with children has a child that is
not complete. -/
theorem running_has_live_child {sh : Shape} (wf : sh.WF) {orc : Oracle} {s : SB}
    (h : Reach sh orc s) {p : Nat} (ht : sh.etype p ≠ .storyBoard) (hne : ∃ c, sh.parent c = some p)
    (hr : s.st p = .running) : ∃ c, sh.parent c = some p ∧ s.st c ≠ .complete := by
  obtain ⟨c, hc⟩ := hne
  have hne' : sh.children p ≠ [] := by
    intro hh; have := (wf.tree _ _).2 hc; simp [hh] at this
  obtain ⟨d, hd, hdc⟩ := (h.inv wf).1.live p (by simp) ht hne' hr
  exact ⟨d, (wf.tree _ _).1 hd, hdc⟩

/-! ## C06 Storyboard operations terminate -/

/-- Recursion depth that suffices for every operation. -/
def enoughFuel : Nat := 64

/-- C06: starting the storyboard returns, from every state and whatever the outcomes of triggers
and actions; a deeper recursion budget gives the same result. -/
theorem start_terminates {sh : Shape} (wf : sh.WF) (orc : Oracle) (s : SB) :
    ∃ s', ∀ f, enoughFuel ≤ f → sbStart sh orc f s = some s' := by
  obtain ⟨s1, h1⟩ := foldlM_total (f := fun s a => actionStart sh orc enoughFuel a s) sh.initActions
    (fun s c _ => actionStart_total wf orc enoughFuel c s (by decide)) s
  obtain ⟨s2, h2⟩ := startE_total wf orc enoughFuel sh.root s1 (by simp [enoughFuel]; omega)
  refine ⟨s2, fun f hf => ?_⟩
  simp only [sbStart, bind, Option.bind_eq_some_iff]
  exact ⟨s1, foldlM_mono _ (fun _ _ _ _ => actionStart_mono hf) _ _ h1,
    startE_mono _ _ _ _ _ hf h2⟩

/-- C06: a storyboard step returns. -/
theorem step_terminates {sh : Shape} (wf : sh.WF) (orc : Oracle) (s : SB) :
    ∃ s', ∀ f, enoughFuel ≤ f → sbStep sh orc f s = some s' := by
  obtain ⟨s1, h1⟩ := evalTriggers_total wf orc enoughFuel sh.root s (by simp [enoughFuel]; omega)
  obtain ⟨s2, h2⟩ := foldlM_total (f := fun s a => actionStep sh orc enoughFuel a s) sh.initActions
    (fun s c _ => actionStep_total wf orc enoughFuel c s (by decide)) s1
  obtain ⟨s3, h3⟩ := stepE_total wf orc enoughFuel sh.root s2 (by simp [enoughFuel]; omega)
  refine ⟨s3, fun f hf => ?_⟩
  simp only [sbStep, bind, Option.bind_eq_some_iff]
  exact ⟨s1, evalTriggers_mono _ _ _ _ _ hf h1, s2,
    foldlM_mono _ (fun _ _ _ _ => actionStep_mono hf) _ _ h2, stepE_mono _ _ _ _ _ hf h3⟩

/-- C06: ending and stopping any element returns. -/
theorem end_terminates {sh : Shape} (wf : sh.WF) (e : Nat) (s : SB) :
    ∃ s', ∀ f, enoughFuel ≤ f → endE sh f e s = some s' := by
  obtain ⟨s1, h1⟩ := endE_total' wf enoughFuel e s (by decide)
  exact ⟨s1, fun f hf => endE_mono _ _ _ _ _ hf h1⟩

theorem stop_terminates {sh : Shape} (wf : sh.WF) (e : Nat) (s : SB) :
    ∃ s', ∀ f, enoughFuel ≤ f → stopE sh f e s = some s' := by
  obtain ⟨s1, h1⟩ := stopE_total' wf enoughFuel e s (by decide)
  exact ⟨s1, fun f hf => stopE_mono _ _ _ _ _ hf h1⟩

/-! ## C07 Event priority -/

/-- Ending conflicting actions and starting an action makes nothing else running. -/
theorem startOneAction_notRunning {sh : Shape} (wf : sh.WF) {orc : Oracle} {f e a : Nat}
    {post : List Nat} {s s' : SB} (he : sh.etype e = .event) (hL : LoopInv sh e (a :: post) s)
    (hmem : ∀ x ∈ a :: post, sh.parent x = some e)
    (h : startOneAction sh orc f a s = some s') {x : Nat} (hx : x ≠ a)
    (hxr : s.st x ≠ .running) : s'.st x ≠ .running := by
  have hae := hmem a (by simp)
  have hat := child_action wf he hae
  simp only [startOneAction, bind, Option.bind_eq_some_iff] at h
  obtain ⟨s2, h1, h2⟩ := h
  obtain ⟨q1, q2, q3⟩ : Inv sh none s2 ∧ s2.st e = .running ∧ EndSteps sh s s2 :=
    endConflicting_inv wf he hL hmem h1
  have hai : s2.st a = .init := q3.init a (hL.todo a (by simp))
  have hx2 := q3.notRunning x hxr
  have hI' : Inv sh none { s2 with clock := s2.clock + 1 } := q1.congr rfl
  obtain ⟨j1, j2, j3, j4⟩ := startSelf_inv (e := a) wf hI' (.inl hai)
    (by intro p hp; rw [hae] at hp; cases hp; exact q2) (by simp [hai])
  unfold actionStart at h2
  simp only at h2
  split at h2
  · cases h2; exact hx2
  · cases h2; rw [j4]; simp [hx]; exact hx2
  · obtain ⟨_, k2, _⟩ := endAction_inv wf j1 hat h2
    refine k2.notRunning x ?_
    rw [j4]; simp [hx]; exact hx2

theorem event_of_sibling {sh : Shape} (wf : sh.WF) {e d m : Nat} (he : sh.etype e = .event)
    (hm : sh.parent e = some m) (hd : sh.parent d = some m) : sh.etype d = .event := by
  have l1 := wf.level _ _ hm; have l2 := wf.level _ _ hd
  exact EType.level_inj (by rw [← he]; omega)

/-- C07, overwrite: when an event with priority overwrite is started, no other event of the
maneuver is running afterwards. -/
theorem overwrite_ends_siblings {sh : Shape} (wf : sh.WF) {orc : Oracle} {f e m : Nat} {s s' : SB}
    (hI : Inv sh none s) (he : sh.etype e = .event) (hm : sh.parent e = some m)
    (hs : s.st e = .standby) (ha : armed e s.log = true) (hp : sh.prio e = .overwrite)
    (h : eventStart sh orc f e s = some s') {d : Nat} (hd : sh.parent d = some m) (hde : d ≠ e) :
    s'.st d ≠ .running := by
  unfold eventStart at h
  simp only [hm, bind, Option.bind_eq_some_iff] at h
  obtain ⟨⟨go, s1⟩, h1, h2⟩ := h
  obtain ⟨i1, i2, i3, i4⟩ := eventPriority_inv wf hI he hm (.inl hs) h1
  simp only at i1 i2 i3 i4
  have hmr : s.st m = .running := hI.act _ _ hm (.inr hs)
  have hsib : s1.st d ≠ .running ∧ go = true := by
    unfold eventPriority at h1
    simp only [hp, hs, reduceCtorEq, if_false, bind, Option.bind_eq_some_iff] at h1
    obtain ⟨t, h3, h4⟩ := h1
    cases h4
    refine ⟨?_, rfl⟩
    have := foldlM_post (P := fun t => Inv sh none t ∧ t.st e = .standby)
      (Q := fun x t => x ≠ e → t.st x ≠ .running) (sh.children m) s s1
      (by
        rintro t x t' hx ⟨p1, p2⟩ ht
        have hxm := (wf.tree _ _).1 hx
        have hxe := event_of_sibling wf he hm hxm
        split at ht
        · next hc =>
          obtain ⟨k1, k2, k3⟩ := endE_inv wf f x t t' (p1.weaken _)
            (fun c hc => .inr (child_action wf hxe hc)) (by simp [hc.2]) ht
          have hfr := endE_frame wf f x x t t' .refl (by
            intro p hp
            rw [hxm] at hp; cases hp
            exact ⟨e, hm, Ne.symm hc.1, by simp [p2]⟩) ht
          exact ⟨⟨k1, by rw [hfr e (Sub.sibling_ne wf hxm hm hc.1), p2]⟩, fun _ => k3⟩
        · next hc =>
          cases ht
          exact ⟨⟨p1, p2⟩, fun hxe' hr => hc ⟨hxe', hr⟩⟩)
      (by
        rintro t x t' y hx hy ⟨p1, p2⟩ ht hq hye
        have hxm := (wf.tree _ _).1 hx
        have hxe := event_of_sibling wf he hm hxm
        split at ht
        · next hc =>
          obtain ⟨k1, k2, k3⟩ := endE_inv wf f x t t' (p1.weaken _)
            (fun c hc => .inr (child_action wf hxe hc)) (by simp [hc.2]) ht
          exact k2.notRunning y (hq hye)
        · cases ht; exact hq hye)
      h3 ⟨hI, hs⟩
    exact this.2 d ((wf.tree _ _).2 hd) hde
  obtain ⟨hsib, rfl⟩ := hsib
  simp only [Bool.true_eq_false, if_false] at h2
  obtain ⟨j1, j2, j3, j4⟩ := startSelf_inv (e := e) wf i1 (.inr (by rw [i3, hs]))
    (by intro p hp; rw [hm] at hp; cases hp; rw [i4, hmr])
    (fun _ _ => i2.keepsArmed e ha)
  have hrun : (startSelf sh e s1).st e = .running := by rw [j4]; simp [i3, hs]
  have hsd : (startSelf sh e s1).st d ≠ .running := by rw [j4]; simp [hde]; exact hsib
  simp only [hrun, ne_eq, not_true_eq_false, if_false] at h2
  split at h2
  · next hnil =>
    obtain ⟨k1, k2, _⟩ := endE_inv wf f e _ s' (j1.weaken _)
      (fun c hc => by have := (wf.tree _ _).2 hc; simp [hnil] at this) (by simp [hrun]) h2
    exact k2.notRunning d hsd
  · have := foldlM_split
      (P := fun _ post t => LoopInv sh e post t ∧ t.st d ≠ .running) (sh.children e) _ s'
      (by
        rintro pre a post t t' hl ⟨hL, hSt⟩ ht
        have hmem : ∀ x ∈ a :: post, sh.parent x = some e := fun x hx =>
          (wf.tree _ _).1 (by rw [hl]; exact List.mem_append_right _ hx)
        obtain ⟨k1, k2⟩ := startOneAction_inv wf he hL hmem
          (by have := wf.nodup e; rw [hl] at this; exact (List.nodup_append.1 this).2.1) ht
        refine ⟨k1, startOneAction_notRunning wf he hL hmem ht ?_ hSt⟩
        rintro rfl
        have h5 := child_action wf he (hmem d (by simp))
        have h6 := event_of_sibling wf he hm hd
        rw [h5] at h6; simp at h6)
      h2
      ⟨⟨j1, fun a ha => by
          have hp := (wf.tree _ _).1 ha
          have : a ≠ e := by rintro rfl; have := wf.level _ _ hp; omega
          rw [j4]; simp only [this, if_false]
          exact i1.idle a e hp (.inr (by rw [i3, hs])), fun _ => hrun⟩, hsd⟩
    exact this.2

/-- C07, skip: while any event of the maneuver runs, a triggered event with priority skip is
ignored: nothing changes at all. -/
theorem skip_ignored {sh : Shape} (wf : sh.WF) {orc : Oracle} {f e m d : Nat} {s : SB}
    (hm : sh.parent e = some m) (hp : sh.prio e = .skip) (hd : sh.parent d = some m)
    (hr : s.st d = .running) : eventStart sh orc f e s = some s := by
  have : anyChildRunning sh m s = true := by
    simp only [anyChildRunning, List.any_eq_true, decide_eq_true_eq]
    exact ⟨d, (wf.tree _ _).2 hd, hr⟩
  simp [eventStart, hm, eventPriority, hp, this]

/-- C07: an event that already runs is not started again and its trigger affects nothing. -/
theorem running_event_not_restarted {sh : Shape} (wf : sh.WF) {orc : Oracle} {f e m : Nat} {s : SB}
    (hm : sh.parent e = some m) (hr : s.st e = .running) :
    eventStart sh orc f e s = some s := by
  cases hp : sh.prio e with
  | skip => exact skip_ignored wf hm hp hm hr
  | overwrite => simp [eventStart, hm, eventPriority, hp, hr]
  | parallel => simp [eventStart, hm, eventPriority, hp, hr]
  | undefined => simp [eventStart, hm, eventPriority, hp]

/-- Actions `a` (of the starting event) and `b` compete: same object, a common domain (if `b` uses
lights, which is bit 2: conflicting lights). -/
def Compete (sh : Shape) (a b : Nat) : Prop :=
  sh.isPrivate a = true ∧ sh.isPrivate b = true ∧ sh.object a ≠ none ∧ sh.object b = sh.object a ∧
    (∃ i : Fin 4, (sh.domains a).getLsbD i = true ∧ (sh.domains b).getLsbD i = true) ∧
    ((sh.domains b).getLsbD 2 = true → sh.lightConflict a b = true)

theorem conflicts_iff (sh : Shape) (a b : Nat) : conflicts sh a b = true ↔
    (∃ i : Fin 4, (sh.domains a).getLsbD i = true ∧ (sh.domains b).getLsbD i = true) ∧
    ((sh.domains b).getLsbD 2 = true → sh.lightConflict a b = true) := by
  unfold conflicts
  generalize sh.lightConflict a b = l
  generalize sh.domains a = d
  generalize sh.domains b = c
  revert d c l
  decide +kernel

theorem compete_iff (sh : Shape) (a b : Nat) : Compete sh a b ↔
    sh.isPrivate a = true ∧ sh.isPrivate b = true ∧ sh.object a ≠ none ∧
      sh.object b = sh.object a ∧ conflicts sh a b = true := by
  rw [conflicts_iff]; rfl

/-- C07, parallel: an event with priority parallel leaves the other running events of the maneuver
and everything below them as they are, provided its actions do not compete with theirs. -/
theorem parallel_keeps_siblings {sh : Shape} (wf : sh.WF) {orc : Oracle} {f e m : Nat} {s s' : SB}
    (hI : Inv sh none s) (he : sh.etype e = .event) (hm : sh.parent e = some m)
    (hs : s.st e = .standby) (ha : armed e s.log = true) (hp : sh.prio e = .parallel)
    (h : eventStart sh orc f e s = some s') {d : Nat} (hd : sh.parent d = some m) (hde : d ≠ e)
    (hdr : s.st d = .running)
    (hno : ∀ a b, sh.parent a = some e → sh.parent b = some d → ¬ Compete sh a b) :
    ∀ x, Sub sh d x → s'.st x = s.st x := by
  have hmr : s.st m = .running := hI.act _ _ hm (.inr hs)
  have hdt := event_of_sibling wf he hm hd
  unfold eventStart at h
  simp only [hm, bind, Option.bind_eq_some_iff] at h
  obtain ⟨⟨go, s1⟩, h1, h2⟩ := h
  have hg : go = true ∧ s1 = s := by
    simp only [eventPriority, hp, hs] at h1
    simp at h1; exact ⟨h1.1, h1.2.symm⟩
  obtain ⟨rfl, rfl⟩ := hg
  simp only [Bool.true_eq_false, if_false] at h2
  obtain ⟨j1, j2, j3, j4⟩ := startSelf_inv (e := e) wf hI (.inr hs)
    (by intro p hp; rw [hm] at hp; cases hp; exact hmr) (fun _ _ => ha)
  have hrun : (startSelf sh e s1).st e = .running := by rw [j4]; simp [hs]
  have hkeep : ∀ x, Sub sh d x → (startSelf sh e s1).st x = s1.st x := by
    intro x hx
    have : x ≠ e := by rintro rfl; exact Sub.sibling_ne wf hd hm hde hx
    rw [j4]; simp [this]
  simp only [hrun, ne_eq, not_true_eq_false, if_false] at h2
  have hded : ¬ Sub sh d e := Sub.sibling_ne wf hd hm hde
  have hedd : ¬ Sub sh e d := Sub.sibling_ne wf hm hd (Ne.symm hde)
  have hdr1 : (startSelf sh e s1).st d = .running := by rw [hkeep d .refl, hdr]
  split at h2
  · intro x hx
    rw [endE_prot wf j1 hdr1 hedd hded h2 x (.inl hx), hkeep x hx]
  · have hact : ∀ a, sh.etype a = .action → sh.parent a ≠ some d → ¬ Sub sh a d ∧ ¬ Sub sh d a := by
      intro a hat hap
      constructor
      · intro hh
        have := hh.level wf
        rw [hat, hdt] at this; simp [EType.level] at this
      · intro hh
        rcases hh.cases_child with rfl | ⟨c, hc, hca⟩
        · rw [hdt] at hat; simp at hat
        · have hct := child_action wf hdt hc
          have := hca.eq_of_level wf (by rw [hct, hat]; exact Nat.le_refl _)
          subst this; exact hap hc
    have := foldlM_split
      (P := fun _ post t => LoopInv sh e post t ∧ ∀ x, Sub sh d x → t.st x = s1.st x)
      (sh.children e) _ s'
      (by
        rintro pre a post t t' hl ⟨hL, hSt⟩ ht
        have hmem : ∀ x ∈ a :: post, sh.parent x = some e := fun x hx =>
          (wf.tree _ _).1 (by rw [hl]; exact List.mem_append_right _ hx)
        obtain ⟨k1, k2⟩ := startOneAction_inv wf he hL hmem
          (by have := wf.nodup e; rw [hl] at this; exact (List.nodup_append.1 this).2.1) ht
        refine ⟨k1, ?_⟩
        have hae := hmem a (by simp)
        have hat := child_action wf he hae
        simp only [startOneAction, bind, Option.bind_eq_some_iff] at ht
        obtain ⟨u, hu, ht⟩ := ht
        have hpre := endConflicting_inv wf he hL hmem hu
        -- conflicting actions are not below `d`
        have hu2 : ∀ x, Sub sh d x → u.st x = s1.st x := by
          refine (endConflicting_keeps wf (d := d) he hL hmem hu ?_ (by simp [hd]) ?_).2
          · intro b hb hb2 hb3 hb4 hb5 hb6
            have hbd : sh.parent b ≠ some d := by
              intro hbd
              exact hno a b hae hbd ((compete_iff ..).2 ⟨hb2, hb3, hb4, hb5, hb6⟩)
            exact hact b hb hbd
          · exact ⟨by rw [hSt d .refl, hdr], hSt⟩
        have hud : u.st d = .running := by rw [hu2 d .refl, hdr]
        -- the action itself
        have hai : u.st a = .init := hpre.2.2.init a (hL.todo a (by simp))
        have hI' : Inv sh none { u with clock := u.clock + 1 } := hpre.1.congr rfl
        obtain ⟨l1, l2, l3, l4⟩ := startSelf_inv (e := a) wf hI' (.inl hai)
          (by intro p hp; rw [hae] at hp; cases hp; exact hpre.2.1) (by simp [hai])
        have had : sh.parent a ≠ some d := by rw [hae]; intro hh; cases hh; exact hde rfl
        obtain ⟨n1, n2⟩ := hact a hat had
        have hkeep2 : ∀ x, Sub sh d x →
            (startSelf sh a { u with clock := u.clock + 1 }).st x = s1.st x := by
          intro x hx
          have : x ≠ a := by rintro rfl; exact n2 hx
          rw [l4]; simp only [this, if_false]; exact hu2 x hx
        unfold actionStart at ht
        simp only at ht
        split at ht
        · cases ht; exact hu2
        · cases ht; exact hkeep2
        · intro x hx
          rw [endE_prot wf l1 (by rw [hkeep2 d .refl, hdr]) n1 n2 ht x (.inl hx), hkeep2 x hx])
      h2
      ⟨⟨j1, fun a ha => by
          have hp := (wf.tree _ _).1 ha
          have : a ≠ e := by rintro rfl; have := wf.level _ _ hp; omega
          rw [j4]; simp only [this, if_false]
          exact hI.idle a e hp (.inr hs), fun _ => hrun⟩, hkeep⟩
    exact this.2

/-! ## C08 Elements with a start trigger only run after the trigger was true -/

theorem armed_iff {e : Nat} : ∀ {l : List Entry}, armed e l = true →
    ∃ mid rest, l = mid ++ .trig e :: rest ∧ ∀ o t, .change e o t .running ∉ mid := by
  intro l
  induction l with
  | nil => intro h; simp [armed] at h
  | cons a l ih =>
    intro h
    cases a with
    | trig x =>
      by_cases hx : x = e
      · subst hx; exact ⟨[], l, rfl, by simp⟩
      · simp only [armed, hx, if_false] at h
        obtain ⟨mid, rest, h1, h2⟩ := ih h
        exact ⟨.trig x :: mid, rest, by simp [h1], by simpa using h2⟩
    | reset x =>
      simp only [armed] at h
      obtain ⟨mid, rest, h1, h2⟩ := ih h
      exact ⟨.reset x :: mid, rest, by simp [h1], by simpa using h2⟩
    | change x o t n =>
      by_cases hn : n = .running
      · subst hn
        by_cases hx : x = e
        · simp [armed, hx] at h
        · simp only [armed, hx, if_false] at h
          obtain ⟨mid, rest, h1, h2⟩ := ih h
          refine ⟨.change x o t .running :: mid, rest, by simp [h1], ?_⟩
          intro o' t' hh
          rcases List.mem_cons.1 hh with hh | hh
          · cases hh; exact hx rfl
          · exact h2 o' t' hh
      · have h' : armed e l = true := by
          cases n <;> first | (exact absurd rfl hn) | simpa [armed] using h
        obtain ⟨mid, rest, h1, h2⟩ := ih h'
        refine ⟨.change x o t n :: mid, rest, by simp [h1], ?_⟩
        intro o' t' hh
        rcases List.mem_cons.1 hh with hh | hh
        · cases hh; exact hn rfl
        · exact h2 o' t' hh

/-- C08: whenever an element with a start trigger entered running, its trigger had been evaluated
to true since it last entered running: every execution is paid for by a firing of its own. -/
theorem start_needs_trigger {sh : Shape} (wf : sh.WF) {orc : Oracle} {s : SB} (h : Reach sh orc s)
    {post pre : List Entry} {e : Nat} {old : St} {tr : Transition} (he : sh.hasStart e = true)
    (hl : s.log = post ++ .change e old tr .running :: pre) :
    ∃ mid rest, pre = mid ++ .trig e :: rest ∧ ∀ o t, .change e o t .running ∉ mid := by
  have := (h.hist wf).log
  rw [hl] at this
  exact armed_iff (this.entry.2.2 rfl he)

end Verif.Storyboard
