import Verif.Storyboard.StartLemmas
import Verif.Storyboard.Total
/-
What every sequence of elementary steps says about the observable history.
-/
namespace Verif.Storyboard

/-- State of an element as told by the history (newest entry first). -/
def stateAfter : List Entry → Nat → St
  | [], _ => .init
  | .change e _ _ new :: l, x => if x = e then new else stateAfter l x
  | .reset e :: l, x => if x = e then .init else stateAfter l x
  | .trig _ :: l, x => stateAfter l x

/-- The announcements allowed for element `e`. -/
inductive LegalChange (sh : Shape) (e : Nat) : St → Transition → St → Prop
  /-- only elements with a start trigger wait in standby after init -/
  | arm : sh.hasStart e = true → LegalChange sh e .init .initToStby .standby
  /-- elements without start trigger start directly -/
  | begin : sh.hasStart e = false → LegalChange sh e .init .start .running
  | start : LegalChange sh e .standby .start .running
  | complete : LegalChange sh e .running .end .complete
  /-- only events and maneuver groups are re-armed -/
  | rearm : Rep sh e → LegalChange sh e .running .end .standby
  | stop : LegalChange sh e .running .stop .complete
  | cancel : LegalChange sh e .standby .stop .complete

/-- What must hold of an entry given the history `l` before it. -/
def EntryOK (sh : Shape) (l : List Entry) : Entry → Prop
  | .change e old tr new => stateAfter l e = old ∧ LegalChange sh e old tr new ∧
      (new = .running → sh.hasStart e = true → armed e l = true)
  | .reset e => RepAbove sh e
  | .trig e => sh.hasStart e = true

def LogOK (sh : Shape) : List Entry → Prop
  | [] => True
  | t :: l => EntryOK sh l t ∧ LogOK sh l

theorem LogOK.entry {sh : Shape} : ∀ {post : List Entry} {t : Entry} {pre : List Entry},
    LogOK sh (post ++ t :: pre) → EntryOK sh pre t := by
  intro post
  induction post with
  | nil => intro t pre h; exact h.1
  | cons a post ih => intro t pre h; exact ih h.2

structure Hist (sh : Shape) (s : SB) : Prop where
  st : ∀ x, s.st x = stateAfter s.log x
  log : LogOK sh s.log

theorem Hist.change {sh : Shape} {s : SB} {e : Nat} {tr : Transition} {new : St} (h : Hist sh s)
    (hl : LegalChange sh e (s.st e) tr new)
    (ha : new = .running → sh.hasStart e = true → armed e s.log = true) :
    Hist sh (setState e tr new s) := by
  unfold setState
  split
  · exact h
  · refine ⟨?_, ⟨(h.st e).symm, hl, ha⟩, h.log⟩
    intro x
    show upd s.st e new x = stateAfter (.change e _ tr new :: s.log) x
    simp only [upd_apply, stateAfter]
    split
    · rfl
    · exact h.st x

theorem El.hist {sh : Shape} {s t : SB} (h : El sh s t) (hs : Hist sh s) : Hist sh t := by
  cases h with
  | ends h =>
    cases h with
    | stop e _ h1 =>
      refine hs.change ?_ (by simp)
      rcases h1 with h1 | h1 <;> rw [h1]
      · exact .stop
      · exact .cancel
    | endC e _ h1 h2 => refine hs.change ?_ (by simp); rw [h1]; exact .complete
    | endS e _ h1 h2 h3 => refine hs.change ?_ (by simp); rw [h1]; exact .rearm h2
    | reset e _ h1 =>
      refine ⟨?_, h1, hs.log⟩
      intro x
      show upd s.st e .init x = stateAfter (.reset e :: s.log) x
      simp only [upd_apply, stateAfter]
      split
      · rfl
      · exact hs.st x
  | tick => exact ⟨hs.st, hs.log⟩
  | trig e _ h1 => exact ⟨hs.st, h1, hs.log⟩
  | stby e _ h1 h2 => refine hs.change ?_ (by simp); rw [h1]; exact .arm h2
  | start e _ h1 =>
    have : Hist sh (setState e .start .running s) := by
      refine hs.change ?_ ?_
      · rcases h1 with h1 | h1 <;> rw [h1.1]
        · exact .begin h1.2
        · exact .start
      · intro _ hh
        rcases h1 with h1 | h1
        · rw [h1.2] at hh; simp at hh
        · exact h1.2 hh
    exact ⟨this.st, this.log⟩

theorem Hist.fresh (sh : Shape) : Hist sh SB.fresh := ⟨fun _ => rfl, trivial⟩

/-! ### execution counts -/

/-- How often `e` entered running since it was last put back to init. -/
def runs (e : Nat) : List Entry → Nat
  | [] => 0
  | .change x _ _ new :: l => if x = e ∧ new = .running then runs e l + 1 else runs e l
  | .reset x :: l => if x = e then 0 else runs e l
  | .trig _ :: l => runs e l

/-- The bound on executions: a maximum below one still allows one. -/
def runLimit (sh : Shape) (e : Nat) : Int := max 1 (sh.maxExec e)

structure Cnt (sh : Shape) (e : Nat) (s : SB) : Prop where
  init : s.st e = .init → runs e s.log = 0
  num : runs e s.log ≤ s.num e
  stby : s.st e = .standby → runs e s.log = 0 ∨ sh.maxExec e = -1 ∨ (s.num e : Int) < sh.maxExec e
  bound : sh.maxExec e ≠ -1 → ∀ pre, pre <:+ s.log → (runs e pre : Int) ≤ runLimit sh e

theorem suffix_cons {α} {p l : List α} {a : α} (h : p <:+ a :: l) : p = a :: l ∨ p <:+ l :=
  List.suffix_cons_iff.1 h

theorem Cnt.other {sh : Shape} {e : Nat} {s t : SB} (h : Cnt sh e s) (hst : t.st e = s.st e)
    (hnum : t.num e = s.num e) (hlog : t.log = s.log ∨ ∃ a, t.log = a :: s.log ∧
      runs e (a :: s.log) = runs e s.log) : Cnt sh e t := by
  have hr : runs e t.log = runs e s.log := by
    rcases hlog with h | ⟨a, h, h'⟩
    · rw [h]
    · rw [h, h']
  refine ⟨?_, ?_, ?_, ?_⟩
  · rw [hst, hr]; exact h.init
  · rw [hnum, hr]; exact h.num
  · rw [hst, hnum, hr]; exact h.stby
  · intro hm pre hpre
    rcases hlog with h' | ⟨a, h', h''⟩
    · rw [h'] at hpre; exact h.bound hm pre hpre
    · rw [h'] at hpre
      rcases suffix_cons hpre with rfl | hp
      · rw [h'']; exact h.bound hm _ (List.suffix_refl _)
      · exact h.bound hm pre hp

theorem El.cnt {sh : Shape} {s t : SB} (h : El sh s t) (e : Nat) (hr : Rep sh e)
    (hc : Cnt sh e s) : Cnt sh e t := by
  have stop : ∀ x tr, (s.st x = .running ∨ s.st x = .standby) →
      Cnt sh e (setState x tr .complete s) := by
    intro x tr h1
    by_cases hx : x = e
    · subst hx
      have hne : s.st x ≠ .complete := by rcases h1 with h | h <;> simp [h]
      have hl : (setState x tr .complete s).log = .change x (s.st x) tr .complete :: s.log := by
        simp [setState, hne]
      refine ⟨?_, ?_, ?_, ?_⟩
      · simp [setState_st]
      · rw [hl]; simp [runs]; exact hc.num
      · simp [setState_st]
      · intro hm pre hpre
        rw [hl] at hpre
        rcases suffix_cons hpre with rfl | hp
        · simp [runs]; exact hc.bound hm _ (List.suffix_refl _)
        · exact hc.bound hm pre hp
    · refine hc.other ?_ (by simp) ?_
      · rw [setState_st, if_neg (Ne.symm hx)]
      · unfold setState; split
        · exact .inl rfl
        · exact .inr ⟨_, rfl, by simp [runs, hx]⟩
  cases h with
  | ends h =>
    cases h with
    | stop x _ h1 => exact stop x _ h1
    | endC x _ h1 h2 => exact stop x _ (.inl h1)
    | endS x _ h1 h2 h3 =>
      by_cases hx : x = e
      · subst hx
        have hl : (setState x .end .standby s).log = .change x (s.st x) .end .standby :: s.log := by
          simp [setState, h1]
        refine ⟨?_, ?_, ?_, ?_⟩
        · simp [setState_st]
        · rw [hl]; simp [runs]; exact hc.num
        · intro _; simp only [setState_num]; exact .inr h3
        · intro hm pre hpre
          rw [hl] at hpre
          rcases suffix_cons hpre with rfl | hp
          · simp [runs]; exact hc.bound hm _ (List.suffix_refl _)
          · exact hc.bound hm pre hp
      · refine hc.other ?_ (by simp) ?_
        · rw [setState_st, if_neg (Ne.symm hx)]
        · unfold setState; split
          · exact .inl rfl
          · exact .inr ⟨_, rfl, by simp [runs]⟩
    | reset x _ h1 =>
      by_cases hx : x = e
      · subst hx
        refine ⟨?_, ?_, ?_, ?_⟩
        · intro _; simp [runs]
        · simp [runs]
        · intro _; simp [runs]
        · intro hm pre hpre
          rcases suffix_cons hpre with rfl | hp
          · simp only [runs, if_true, runLimit]; omega
          · exact hc.bound hm pre hp
      · refine hc.other ?_ rfl (.inr ⟨_, rfl, by simp [runs, hx]⟩)
        show upd s.st x .init e = _
        rw [upd_other _ _ (Ne.symm hx)]
  | tick => exact ⟨hc.init, hc.num, hc.stby, hc.bound⟩
  | trig x _ h1 => exact hc.other rfl rfl (.inr ⟨_, rfl, by simp [runs]⟩)
  | stby x _ h1 h2 =>
    by_cases hx : x = e
    · subst hx
      have hl : (setState x .initToStby .standby s).log =
          .change x (s.st x) .initToStby .standby :: s.log := by simp [setState, h1]
      refine ⟨?_, ?_, ?_, ?_⟩
      · simp [setState_st]
      · rw [hl]; simp [runs]; exact hc.num
      · intro _; rw [hl]; left; simp [runs]; exact hc.init h1
      · intro hm pre hpre
        rw [hl] at hpre
        rcases suffix_cons hpre with rfl | hp
        · simp [runs]; exact hc.bound hm _ (List.suffix_refl _)
        · exact hc.bound hm pre hp
    · refine hc.other ?_ (by simp) ?_
      · rw [setState_st, if_neg (Ne.symm hx)]
      · unfold setState; split
        · exact .inl rfl
        · exact .inr ⟨_, rfl, by simp [runs]⟩
  | start x _ h1 =>
    by_cases hx : x = e
    · subst hx
      have hne : s.st x ≠ .running := by rcases h1 with h | h <;> simp [h.1]
      have hl : (setState x .start .running s).log =
          .change x (s.st x) .start .running :: s.log := by simp [setState, hne]
      have hrun : runs x (.change x (s.st x) .start .running :: s.log) = runs x s.log + 1 := by
        simp [runs]
      refine ⟨?_, ?_, ?_, ?_⟩
      · simp [setState_st]
      · show runs x (setState x .start .running s).log ≤ upd s.num x (s.num x + 1) x
        rw [hl, hrun, upd_same]; have := hc.num; omega
      · simp [setState_st]
      · intro hm pre hpre
        have hpre' : pre <:+ (setState x .start .running s).log := hpre
        rw [hl] at hpre'
        rcases suffix_cons hpre' with rfl | hp
        · rw [hrun]
          have hn := hc.num
          unfold runLimit
          rcases h1 with h1 | h1
          · rw [hc.init h1.1]; omega
          · rcases hc.stby h1.1 with h | h | h
            · rw [h]; omega
            · exact absurd h hm
            · omega
        · exact hc.bound hm pre hp
    · refine hc.other ?_ ?_ ?_
      · show (setState x .start .running s).st e = _
        rw [setState_st, if_neg (Ne.symm hx)]
      · show upd s.num x _ e = _
        rw [upd_other _ _ (Ne.symm hx)]
      · show (setState x .start .running s).log = _ ∨ ∃ a, (setState x .start .running s).log = _ ∧ _
        unfold setState; split
        · exact .inl rfl
        · exact .inr ⟨_, rfl, by simp [runs, hx]⟩

theorem Cnt.fresh (sh : Shape) (e : Nat) : Cnt sh e SB.fresh := by
  refine ⟨fun _ => rfl, Nat.le_refl _, by simp [SB.fresh], ?_⟩
  intro _ pre hpre
  have : pre = [] := by simpa [SB.fresh] using hpre
  subst this; simp only [runs, runLimit]; omega

/-- How often `e` entered running since the scenario was loaded. -/
def totalRuns (e : Nat) : List Entry → Nat
  | [] => 0
  | .change x _ _ new :: l => if x = e ∧ new = .running then totalRuns e l + 1 else totalRuns e l
  | _ :: l => totalRuns e l

/-- Completing by `End` needs the executions to be used up. -/
def DoneOK (sh : Shape) (e : Nat) : List Entry → Prop
  | [] => True
  | .change x _ .end .complete :: l => (x = e → sh.maxExec e ≤ totalRuns e l) ∧ DoneOK sh e l
  | _ :: l => DoneOK sh e l

theorem DoneOK.entry {sh : Shape} {e : Nat} {old : St} : ∀ {post pre : List Entry},
    DoneOK sh e (post ++ .change e old .end .complete :: pre) → sh.maxExec e ≤ totalRuns e pre := by
  intro post
  induction post with
  | nil => intro pre h; exact h.1 rfl
  | cons a post ih =>
    intro pre h
    cases a with
    | change x o t n => cases t <;> cases n <;> first | exact ih h | exact ih h.2
    | reset x => exact ih h
    | trig x => exact ih h

theorem El.done {sh : Shape} {s t : SB} (h : El sh s t) (e : Nat) (hr : Rep sh e)
    (hc : totalRuns e s.log = s.num e ∧ DoneOK sh e s.log) :
    totalRuns e t.log = t.num e ∧ DoneOK sh e t.log := by
  cases h with
  | ends h =>
    cases h with
    | stop x _ h1 => unfold setState; split <;> simpa [totalRuns, DoneOK] using hc
    | endC x _ h1 h2 =>
      unfold setState; split
      · exact hc
      · refine ⟨by simpa [totalRuns] using hc.1, ?_, hc.2⟩
        rintro rfl
        have := (h2 hr).2
        rw [hc.1]; exact this
    | endS x _ h1 h2 h3 => unfold setState; split <;> simpa [totalRuns, DoneOK] using hc
    | reset x _ h1 => simpa [totalRuns, DoneOK] using hc
  | tick => exact hc
  | trig x _ h1 => simpa [totalRuns, DoneOK] using hc
  | stby x _ h1 h2 => unfold setState; split <;> simpa [totalRuns, DoneOK] using hc
  | start x _ h1 =>
    have hne : s.st x ≠ .running := by rcases h1 with h | h <;> simp [h.1]
    have hl : (setState x .start .running s).log =
        .change x (s.st x) .start .running :: s.log := by simp [setState, hne]
    show totalRuns e (setState x .start .running s).log = upd s.num x (s.num x + 1) e ∧
      DoneOK sh e (setState x .start .running s).log
    rw [hl]
    refine ⟨?_, hc.2⟩
    by_cases hx : x = e
    · subst hx; simp [totalRuns, hc.1]
    · have : e ≠ x := Ne.symm hx
      simp [totalRuns, hx, this, upd_apply, hc.1]

/-! ### complete is final without repeatable ancestors -/

theorem El.complete {sh : Shape} {s t : SB} (h : El sh s t) (x : Nat) (hr : ¬ RepAbove sh x)
    (hx : s.st x = .complete) : t.st x = .complete := by
  cases h with
  | ends h => exact (EndSteps.one h).complete x hr hx
  | tick => exact hx
  | trig => exact hx
  | stby e _ h1 _ =>
    rw [setState_st, if_neg]; exact hx
    rintro rfl; simp [h1] at hx
  | start e _ h1 =>
    show (setState e .start .running s).st x = _
    rw [setState_st, if_neg]; exact hx
    rintro rfl; rcases h1 with h | h <;> simp [h.1] at hx

theorem Steps.complete {sh : Shape} {s t : SB} (h : Steps sh s t) (x : Nat) (hr : ¬ RepAbove sh x)
    (hx : s.st x = .complete) : t.st x = .complete :=
  h.keeps (fun s => s.st x = .complete) (fun _ _ h hs => h.complete x hr hs) hx

/-- Acts, stories and the storyboard itself have no repeatable ancestors. -/
theorem not_repAbove {sh : Shape} (wf : sh.WF) {x : Nat}
    (hx : (sh.etype x).level ≤ 4) : ¬ RepAbove sh x := by
  rintro ⟨a, ha, hs, hne⟩
  have h1 := hs.level wf
  have h2 : 4 ≤ (sh.etype a).level := by
    rcases ha with h | h <;> rw [h] <;> decide
  exact hne (hs.eq_of_level wf (by omega))

end Verif.Storyboard
