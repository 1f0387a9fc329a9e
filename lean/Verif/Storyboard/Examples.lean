import Verif.Storyboard.Theorems
/-
A concrete storyboard: the hypotheses of the theorems are satisfiable, and what the engine does
that a user may not expect.

    0 storyboard - 1 story - 2 act (stop trigger) - 3 maneuver group - 4 maneuver
      - 5 event [action 6], 7 event [action 8]
-/
namespace Verif.Storyboard.Ex

def parentT : Nat → Option Nat
  | 1 => some 0 | 2 => some 1 | 3 => some 2 | 4 => some 3
  | 5 => some 4 | 6 => some 5 | 7 => some 4 | 8 => some 7
  | _ => none

def childrenT : Nat → List Nat
  | 0 => [1] | 1 => [2] | 2 => [3] | 3 => [4] | 4 => [5, 7] | 5 => [6] | 7 => [8]
  | _ => []

def etypeT : Nat → EType
  | 0 => .storyBoard | 1 => .story | 2 => .act | 3 => .maneuverGroup | 4 => .maneuver
  | 5 => .event | 7 => .event
  | _ => .action

/-- Two events with given priorities and maximum execution counts. -/
def shape (stp : Bool) (p5 p7 : Prio) (m3 m5 m7 : Int) : Shape where
  parent := parentT
  children := childrenT
  etype := etypeT
  hasStart := fun n => match n with | 2 => true | 5 => true | 7 => true | _ => false
  hasStop := fun n => match n with | 2 => stp | _ => false
  maxExec := fun n => match n with | 3 => m3 | 5 => m5 | 7 => m7 | _ => 1
  prio := fun n => match n with | 5 => p5 | _ => p7
  isPrivate := fun n => match n with | 6 => true | 8 => true | 9 => true | _ => false
  object := fun n => match n with | 6 => some 0 | 8 => some 1 | 9 => some 0 | _ => none
  domains := fun _ => 1#4
  lightConflict := fun _ _ => false
  initActionsOf := fun o => match o with | 0 => [9] | _ => []
  objectEvents := fun o => match o with | 0 => [5] | 1 => [7] | _ => []
  root := 0
  initGlobal := []
  initUser := []
  initPrivate := [9]

theorem shape_wf (stp p5 p7 m3 m5 m7) : (shape stp p5 p7 m3 m5 m7).WF where
  tree := by
    intro c p
    simp only [shape]
    unfold parentT childrenT
    split <;> split <;> simp_all <;> omega
  nodup := by intro p; simp only [shape]; unfold childrenT; split <;> simp
  level := by
    intro c p h
    simp only [shape] at h ⊢
    unfold parentT at h
    split at h <;> simp at h <;> subst h <;> rfl
  eventStart := by
    intro e h; simp only [shape] at h ⊢; unfold etypeT at h; split at h <;> simp_all
  startOnly := by
    intro e h; simp only [shape] at h ⊢; split at h <;> simp_all [etypeT]
  eventParent := by
    intro e h; simp only [shape] at h ⊢; unfold etypeT at h; split at h <;> simp_all [parentT]
  initAct := by intro o a h; simp only [shape] at h ⊢; split at h <;> simp_all [etypeT]
  initActTop := by intro o a h; simp only [shape] at h ⊢; split at h <;> simp_all [parentT]
  objEv := by intro o e h; simp only [shape] at h ⊢; split at h <;> simp_all [etypeT]
  root := rfl
  initNodup := by simp [shape, Shape.initActions]
  initType := by simp [shape, Shape.initActions, etypeT, parentT]

/-- Triggers: consultation number `n` is answered by membership in the list. Actions run until
stepped with an `ends`. -/
def orc (t : List Nat) (ends : List Nat) : Oracle where
  trig := fun n => t.contains n
  start := fun _ => .run
  step := fun n => if ends.contains n then .ends else .nothing

def states (s : SB) : List St := (List.range 10).map s.st

/-- `n` steps after the start. -/
def runN (sh : Shape) (orc : Oracle) : Nat → Option SB
  | 0 => sbStart sh orc enoughFuel SB.fresh
  | n + 1 => (runN sh orc n).bind (sbStep sh orc enoughFuel)

theorem runN_reach {sh : Shape} {orc : Oracle} : ∀ {n : Nat} {s : SB},
    runN sh orc n = some s → Reach sh orc s
  | 0, _, h => .start h
  | n + 1, s, h => by
    simp only [runN, Option.bind_eq_some_iff] at h
    obtain ⟨t, h1, h2⟩ := h
    exact .step (runN_reach h1) h2

def always (st : ActStart) (sp : ActStep) : Oracle where
  trig := fun _ => true
  start := fun _ => st
  step := fun _ => sp

/-- Existence of a reachable state from a computation. -/
theorem reach_of {sh : Shape} {orc : Oracle} {n : Nat} {l : List St}
    (h : (runN sh orc n).map states = some l) : ∃ s, Reach sh orc s ∧ states s = l := by
  cases hs : runN sh orc n with
  | none => simp [hs] at h
  | some s => simp only [hs, Option.map_some, Option.some.injEq] at h; exact ⟨s, runN_reach hs, h⟩

/-- C03, C05: a reachable state with everything running down to an action, one event waiting. -/
example : ∃ s, Reach (shape true .parallel .overwrite 2 2 2) (orc [1, 3] []) s ∧ states s =
    [.running, .running, .running, .running, .running, .standby, .init, .running, .running,
     .running] := reach_of (n := 1) (by decide)

/-- C01, C02, C08: two executions of the group, with announcements in between. -/
example : ((runN (shape false .parallel .parallel 2 2 1) (always .run .ends) 3).map fun s =>
    (states s, s.log.length, s.log.count (.reset 5), s.num 3)) = some
    ([.running, .complete, .complete, .complete, .complete, .complete, .complete, .complete,
      .complete, .complete], 52, 1, 2) := by decide

/-- C04: the act's stop trigger fires while an event below it still has executions left. -/
example : ∃ s, Reach (shape true .parallel .parallel 2 2 1) (orc [1, 2, 6] []) s ∧ states s =
    [.running, .complete, .complete, .complete, .init, .init, .init, .init, .init, .complete] :=
  reach_of (n := 2) (by decide)

/-- C07: overwrite ends the running event, which goes back to standby (one execution left). -/
example : ((runN (shape false .parallel .overwrite 1 2 1) (orc [1, 2, 6] []) 2).map states) = some
    [.running, .running, .running, .running, .running, .standby, .init, .running, .running,
     .complete] := by decide

/-- C07: with parallel both run; with skip the second is ignored. -/
example : ((runN (shape false .parallel .parallel 1 2 1) (orc [1, 2, 6] []) 2).map states) = some
    [.running, .running, .running, .running, .running, .running, .running, .running, .running,
     .complete] := by decide

example : ((runN (shape false .parallel .skip 1 2 1) (orc [1, 2, 6] []) 2).map states) = some
    [.running, .running, .running, .running, .running, .running, .running, .standby, .init,
     .complete] := by decide

/-! ## C41 Execution counts of a re-executed group -/

/-- C41 is violated: an event with maximumExecutionCount 2 whose trigger is always true runs twice
in the first execution of its group but only once in the second one (`num_executions_` is not reset,
StoryboardElement.cpp:367-386): it is complete after a single run. -/
theorem reexecution_count_witness :
    let sh := shape false .parallel .parallel 2 2 1
    sh.WF ∧ sh.maxExec 5 = 2 ∧
    ((runN sh (always .run .ends) 3).map fun s => (s.st 5, runs 5 s.log, s.log.count (.reset 5)))
      = some (.complete, 1, 1) :=
  ⟨shape_wf .., rfl, by decide⟩

/-! ## C42 An event with an action that does not start -/

/-- C42 is violated: when the action of an event declines to start (for example an
AddEntityAction for an entity that is already present) the event stays running forever. -/
theorem declined_action_hangs_event :
    let sh := shape false .parallel .parallel 1 1 1
    sh.WF ∧ ∃ s, Reach sh (always .refuse .ends) s ∧ s.st 5 = .running ∧ s.st 6 = .init ∧
      ∀ n, runN sh (always .refuse .ends) (n + 1) = some s := by
  refine ⟨shape_wf .., ?_⟩
  have hstep : ∀ n, runN (shape false .parallel .parallel 1 1 1) (always .refuse .ends) (n + 1) =
      runN (shape false .parallel .parallel 1 1 1) (always .refuse .ends) 1 := by
    intro n
    induction n with
    | zero => rfl
    | succ n ih => rw [runN, ih]; rfl
  cases hs : runN (shape false .parallel .parallel 1 1 1) (always .refuse .ends) 1 with
  | none =>
    have : (runN (shape false .parallel .parallel 1 1 1) (always .refuse .ends) 1).isSome = true := by
      decide
    simp [hs] at this
  | some s =>
    have h : (runN (shape false .parallel .parallel 1 1 1) (always .refuse .ends) 1).map
        (fun s => (s.st 5, s.st 6)) = some (.running, .init) := by decide
    simp only [hs, Option.map_some, Option.some.injEq, Prod.mk.injEq] at h
    exact ⟨s, runN_reach hs, h.1, h.2, fun n => by rw [hstep n, hs]⟩

end Verif.Storyboard.Ex
