import Verif.Storyboard.Exclusive
/-
C167: the control domains of the private actions, the list of events the reader keeps for each
entity, and where the exclusion of competing actions ends.
-/
namespace Verif.Storyboard

/-- Private actions, OSCPrivateAction.hpp; `trajectory timed` has a time reference if `timed`. -/
inductive Kind
  | speed | speedProfile | longDistance | latDistance | laneChange | laneOffset | synchronize
  | teleport | trajectory (timed : Bool) | acquirePosition | assignRoute | randomRoute
  | connectTrailer | disconnectTrailer | assignController | activateController | visibility | light
  deriving DecidableEq, Repr

/-- Domain masks passed to the constructors: OSCPrivateAction.hpp:265, 356-358, 471, 556
(`ControlDomains::DOMAIN_LAT`, CommonMini.hpp:123, not a mask), 681, 789, 875-877, 966-968,
1025-1027, 1063-1065, 1102, 1236-1238, 1277-1279, 1323-1325, 1387-1389, 1428, 1468-1470; trajectory:
ScenarioReader.cpp:3526-3535. Masks: CommonMini.hpp:129-138. -/
def Kind.mask : Kind → BitVec 4
  | speed => 1#4
  | speedProfile => 1#4
  | longDistance => 1#4
  | latDistance => 1#4
  | laneChange => 2#4
  | laneOffset => 2#4
  | synchronize => 1#4
  | teleport => 3#4
  | trajectory false => 2#4
  | trajectory true => 3#4
  | acquirePosition => 1#4
  | assignRoute => 0#4
  | randomRoute => 0#4
  | connectTrailer => 0#4
  | disconnectTrailer => 0#4
  | assignController => 0#4
  | activateController => 0#4
  | visibility => 0#4
  | light => 4#4

/-- A child element of `Action` in an event: private or not, and for which actors the reader
produces an action (ScenarioReader.cpp returns null for unsupported or broken elements, for example
4011-4015 animation actions, 3916-3924 wrong gears). -/
structure Elem where
  priv : Bool
  parsed : Nat → Bool

/-- State of the loop over the elements: actions of the event as pairs of element number and actor,
entities that got the event, `event_added_to_objects`. -/
structure Reg where
  acts : List (Nat × Nat)
  objs : List Nat
  added : Bool
  deriving DecidableEq

/-- The `PrivateAction` branch, ScenarioReader.cpp:5304-5327. -/
def regOne (actors : List Nat) (i : Nat) (el : Elem) (r : Reg) : Reg :=
  if el.priv then
    let r' := actors.foldl (fun r o =>
      if el.parsed o then
        { r with acts := r.acts ++ [(i, o)], objs := if r.added then r.objs else r.objs ++ [o] }
      else r) r
    { r' with added := true }
  else r

def regFrom (actors : List Nat) : Nat → List Elem → Reg → Reg
  | _, [], r => r
  | i, el :: l, r => regFrom actors (i + 1) l (regOne actors i el r)

/-- Private actions of one event and the entities that get the event in `objectEvents_`,
ScenarioReader.cpp:5275-5329. -/
def readEvent (actors : List Nat) (l : List Elem) : Reg := regFrom actors 0 l ⟨[], [], false⟩

theorem regOne_spec (i : Nat) (el : Elem) (hp : el.priv = true) : ∀ (actors : List Nat) (r : Reg),
    (∀ j o, (j, o) ∈ (regOne actors i el r).acts ↔
      (j, o) ∈ r.acts ∨ (j = i ∧ o ∈ actors ∧ el.parsed o = true)) ∧
    (∀ o, o ∈ (regOne actors i el r).objs ↔
      o ∈ r.objs ∨ (r.added = false ∧ o ∈ actors ∧ el.parsed o = true)) ∧
    (regOne actors i el r).added = true := by
  intro actors
  induction actors with
  | nil => intro r; simp [regOne, hp]
  | cons a l ih =>
    intro r
    have := ih (if el.parsed a then
        { r with acts := r.acts ++ [(i, a)], objs := if r.added then r.objs else r.objs ++ [a] }
      else r)
    simp only [regOne, hp, if_true, List.foldl_cons] at this ⊢
    obtain ⟨h1, h2, _⟩ := this
    refine ⟨fun j o => ?_, fun o => ?_, by simp⟩
    · rw [h1]; split <;> simp <;> grind
    · rw [h2]; split <;> simp <;> grind

theorem regOne_other (actors : List Nat) (i : Nat) (el : Elem) (hp : el.priv = false) (r : Reg) :
    regOne actors i el r = r := by simp [regOne, hp]

/-- All actions belong to actors, all entities with the event are actors. -/
theorem regFrom_done (actors : List Nat) : ∀ (l : List Elem) (i : Nat) (r : Reg),
    r.added = true → (∀ o ∈ actors, o ∈ r.objs) → (∀ j o, (j, o) ∈ r.acts → o ∈ r.objs) →
    ∀ j o, (j, o) ∈ (regFrom actors i l r).acts → o ∈ (regFrom actors i l r).objs := by
  intro l
  induction l with
  | nil => intro i r _ _ h; exact h
  | cons el l ih =>
    intro i r ha ho hr
    simp only [regFrom]
    cases hp : el.priv with
    | false => rw [regOne_other _ _ _ hp]; exact ih _ _ ha ho hr
    | true =>
      obtain ⟨h1, h2, h3⟩ := regOne_spec i el hp actors r
      refine ih _ _ h3 (fun o h => (h2 o).2 (.inl (ho o h))) ?_
      intro j o hj
      rcases (h1 j o).1 hj with h | ⟨_, h, _⟩
      · exact (h2 o).2 (.inl (hr j o h))
      · exact (h2 o).2 (.inl (ho o h))

/-- C167: if the reader accepts the first private action of an event for all actors, every entity
with an action in the event knows the event. -/
theorem readEvent_known_partial (actors : List Nat) (pre post : List Elem) (el : Elem)
    (hpre : ∀ x ∈ pre, x.priv = false) (hp : el.priv = true)
    (hall : ∀ o ∈ actors, el.parsed o = true) {j o : Nat}
    (h : (j, o) ∈ (readEvent actors (pre ++ el :: post)).acts) :
    o ∈ (readEvent actors (pre ++ el :: post)).objs := by
  unfold readEvent at *
  generalize 0 = i at *
  induction pre generalizing i with
  | nil =>
    simp only [List.nil_append, regFrom] at *
    obtain ⟨h1, h2, h3⟩ := regOne_spec i el hp actors ⟨[], [], false⟩
    refine regFrom_done actors post _ _ h3 (fun o ho => (h2 o).2 (.inr ⟨rfl, ho, hall o ho⟩)) ?_ j o h
    intro j o hj
    rcases (h1 j o).1 hj with h | ⟨_, h, h'⟩
    · simp at h
    · exact (h2 o).2 (.inr ⟨rfl, h, h'⟩)
  | cons x pre ih =>
    simp only [List.cons_append, regFrom, regOne_other _ _ _ (hpre x (by simp))] at *
    exact ih (fun y hy => hpre y (by simp [hy])) _ h

/-- Only actors get actions. -/
theorem readEvent_actors (actors : List Nat) (l : List Elem) {j o : Nat}
    (h : (j, o) ∈ (readEvent actors l).acts) : o ∈ actors := by
  unfold readEvent at h
  suffices ∀ (l : List Elem) (i : Nat) (r : Reg), (∀ j o, (j, o) ∈ r.acts → o ∈ actors) →
      ∀ j o, (j, o) ∈ (regFrom actors i l r).acts → o ∈ actors from
    this l 0 _ (by simp) j o h
  intro l
  induction l with
  | nil => intro i r h; exact h
  | cons el l ih =>
    intro i r hr
    refine ih _ _ ?_
    cases hp : el.priv with
    | false => rw [regOne_other _ _ _ hp]; exact hr
    | true =>
      intro j o hj
      rcases ((regOne_spec i el hp actors r).1 j o).1 hj with h | h
      · exact hr j o h
      · exact h.2.1

example : readEvent [3, 4] [⟨false, fun _ => true⟩, ⟨true, fun _ => true⟩, ⟨true, (· = 4)⟩] =
    ⟨[(1, 3), (1, 4), (2, 4)], [3, 4], true⟩ := by decide

/-- C167 fails: after an animation action (not supported, dropped) the entity does not know the
event, though it has a speed action in it. -/
theorem readEvent_known_fails :
    ¬ ∀ (actors : List Nat) (l : List Elem) (j o : Nat), (j, o) ∈ (readEvent actors l).acts →
      o ∈ (readEvent actors l).objs := by
  intro h
  have := h [0] [⟨true, fun _ => false⟩, ⟨true, fun _ => true⟩] 1 0 (by decide)
  exact absurd this (by decide)

/-! ## What the masks should be -/

/-- Which motion an action prescribes: along, across. -/
def Kind.along : Kind → Bool
  | speed | speedProfile | longDistance | synchronize | teleport | trajectory true => true
  | _ => false

def Kind.across : Kind → Bool
  | latDistance | laneChange | laneOffset | teleport | trajectory _ => true
  | _ => false

/-- C167: with the exception of lateral distance and acquire position actions, two actions have a
domain in common exactly if both prescribe the motion along or both across the road (or both are
light actions). -/
theorem masks_partial (k l : Kind) (hk : k ≠ .latDistance ∧ k ≠ .acquirePosition)
    (hl : l ≠ .latDistance ∧ l ≠ .acquirePosition) :
    (k.mask &&& l.mask) ≠ 0#4 ↔
      (k.along = true ∧ l.along = true) ∨ (k.across = true ∧ l.across = true) ∨
      (k = .light ∧ l = .light) := by
  revert hk hl
  cases k <;> (try (rename_i b; cases b)) <;> cases l <;> (try (rename_i c; cases c)) <;> decide

/-- C167 fails: a lateral distance action shares a domain with speed actions and not with lane
changes. -/
theorem masks_fails :
    (Kind.latDistance.mask &&& Kind.speed.mask) ≠ 0#4 ∧
    (Kind.latDistance.mask &&& Kind.laneChange.mask) = 0#4 ∧
    Kind.latDistance.across = true ∧ Kind.laneChange.across = true ∧
    Kind.latDistance.along = false := by decide

/-- Light actions are the only ones with the light domain (hypothesis `Sym.only`). -/
theorem light_only (k : Kind) (h : (k.mask &&& maskLight) ≠ 0#4) : k.mask = maskLight := by
  cases k <;> simp_all [Kind.mask, maskLight]
  rename_i b; cases b <;> simp_all

/-! ## Witnesses in the storyboard -/

namespace Ex

/-- The storyboard of `Ex.shape` with kinds for the actions 6 and 8 of the two events and for the
init actions 9 and 10 (10 only if `two`) and the injected action 11, all of entity 0, which knows
the second event, and the first one if `k5`. -/
def shape2 (k : Nat → Kind) (k5 two : Bool) : Shape :=
  { shape false .parallel .parallel 1 1 1 with
    isPrivate := fun n => decide (n = 6 ∨ n = 8 ∨ n = 9 ∨ n = 10 ∨ n = 11)
    object := fun n => if n = 6 ∨ n = 8 ∨ n = 9 ∨ n = 10 ∨ n = 11 then some 0 else none
    domains := fun n => (k n).mask
    initActionsOf := fun o => if o = 0 then (if two then [9, 10] else [9]) else []
    objectEvents := fun o => if o = 0 then (if k5 then [5, 7] else [7]) else []
    initPrivate := if two then [9, 10] else [9] }

theorem shape2_wf (k k5 two) : (shape2 k k5 two).WF where
  tree := (shape_wf false .parallel .parallel 1 1 1).tree
  nodup := (shape_wf false .parallel .parallel 1 1 1).nodup
  level := (shape_wf false .parallel .parallel 1 1 1).level
  eventStart := (shape_wf false .parallel .parallel 1 1 1).eventStart
  startOnly := (shape_wf false .parallel .parallel 1 1 1).startOnly
  eventParent := (shape_wf false .parallel .parallel 1 1 1).eventParent
  initAct := by
    intro o a h
    simp only [shape2, shape] at h ⊢
    split at h
    case isFalse => simp at h
    cases two <;> simp at h <;> (try rcases h with rfl | rfl) <;> (try subst h) <;> rfl
  initActTop := by
    intro o a h
    simp only [shape2, shape] at h ⊢
    split at h
    case isFalse => simp at h
    cases two <;> simp at h <;> (try rcases h with rfl | rfl) <;> (try subst h) <;> rfl
  objEv := by
    intro o a h
    simp only [shape2, shape] at h ⊢
    split at h
    case isFalse => simp at h
    cases k5 <;> simp at h <;> (try rcases h with rfl | rfl) <;> (try subst h) <;> rfl
  root := rfl
  initNodup := by cases two <;> simp [shape2, shape, Shape.initActions]
  initType := by cases two <;> simp [shape2, shape, Shape.initActions, etypeT, parentT]

theorem shape2_sym (k k5 two) : (shape2 k k5 two).Sym where
  light := fun _ _ => rfl
  only := fun a h => light_only (k a) h

theorem runN_exec {sh : Shape} {orc : Oracle} : ∀ {n : Nat} {s : SB},
    runN sh orc n = some s → Exec sh orc s
  | 0, _, h => .start h
  | n + 1, s, h => by
    simp only [runN, Option.bind_eq_some_iff] at h
    obtain ⟨t, h1, h2⟩ := h
    exact .step (runN_exec h1) h2

/-- Existence of an execution from a computation. -/
theorem exec_of {α : Type} {sh : Shape} {orc : Oracle} {n : Nat} {g : SB → α} {l : α}
    (h : (runN sh orc n).map g = some l) : ∃ s, Exec sh orc s ∧ g s = l := by
  cases hs : runN sh orc n with
  | none => simp [hs] at h
  | some s => simp only [hs, Option.map_some, Option.some.injEq] at h; exact ⟨s, runN_exec hs, h⟩

/-- All speed actions; the second event starts one step later: the speed action of the first is
ended, as the init action was when the first event started. The hypotheses of `exclusive_partial`
hold for 6 and 8. -/
example : (∃ s, Exec (shape2 (fun _ => .speed) true false) (orc [1, 2, 6] []) s ∧
    (s.st 6, s.st 8, s.st 9) = (.running, .init, .complete)) ∧
    (∃ s, Exec (shape2 (fun _ => .speed) true false) (orc [1, 2, 6] []) s ∧
      (s.st 6, s.st 8, s.st 9) = (.complete, .running, .complete)) :=
  ⟨exec_of (n := 1) (by decide), exec_of (n := 2) (by decide)⟩

example : (shape2 (fun _ => .speed) true false).parent 6 ≠ none ∧
    Known (shape2 (fun _ => .speed) true false) 6 ∧
    Known (shape2 (fun _ => .speed) true false) 8 ∧
    Compete (shape2 (fun _ => .speed) true false) 6 8 := by
  refine ⟨by decide, ⟨0, rfl, .inr ⟨5, by decide, by decide⟩⟩,
    ⟨0, rfl, .inr ⟨7, by decide, by decide⟩⟩, by unfold Compete; decide⟩

/-- A speed action and a lane change go on side by side (`start_keeps_others`). -/
example : ∃ s, Exec (shape2 (fun n => if n = 8 then .laneChange else .speed) true false)
    (orc [1, 2, 6] []) s ∧ (s.st 6, s.st 8) = (.running, .running) :=
  exec_of (n := 2) (by decide)

/-- C167 fails: starting a lateral distance action ends the running speed action of the entity, and
leaves its lane change running. -/
theorem lat_distance_fails :
    (∃ s t, Exec (shape2 (fun n => if n = 8 then .latDistance else .speed) true false)
      (orc [1, 2, 6] []) s ∧
      sbStep (shape2 (fun n => if n = 8 then .latDistance else .speed) true false)
        (orc [1, 2, 6] []) enoughFuel s = some t ∧
      s.st 6 = .running ∧ t.st 6 = .complete ∧ t.st 8 = .running) ∧
    (∃ t, Exec (shape2 (fun n => if n = 8 then .latDistance else .laneChange) true false)
      (orc [1, 2, 6] []) t ∧ t.st 6 = .running ∧ t.st 8 = .running) := by
  constructor
  · cases hs : runN (shape2 (fun n => if n = 8 then .latDistance else .speed) true false)
        (orc [1, 2, 6] []) 1 with
    | none =>
      have : (runN (shape2 (fun n => if n = 8 then .latDistance else .speed) true false)
        (orc [1, 2, 6] []) 1).isSome = true := by decide
      simp [hs] at this
    | some s =>
      have h : ((runN (shape2 (fun n => if n = 8 then .latDistance else .speed) true false)
          (orc [1, 2, 6] []) 1).bind fun s =>
            (sbStep (shape2 (fun n => if n = 8 then .latDistance else .speed) true false)
              (orc [1, 2, 6] []) enoughFuel s).map fun t => (s.st 6, t.st 6, t.st 8)) =
          some (.running, .complete, .running) := by decide
      rw [hs] at h
      simp only [Option.bind_some, Option.map_eq_some_iff, Prod.mk.injEq] at h
      obtain ⟨t, h1, h2⟩ := h
      exact ⟨s, t, runN_exec hs, h1, h2⟩
  · obtain ⟨s, h1, h2⟩ := exec_of (sh := shape2 (fun n => if n = 8 then .latDistance else
      .laneChange) true false) (orc := orc [1, 2, 6] []) (n := 2) (g := fun s => (s.st 6, s.st 8))
      (l := (.running, .running)) (by decide)
    simp only [Prod.mk.injEq] at h2
    exact ⟨s, h1, h2⟩

/-- C167 fails: an action of an event the entity does not know (`readEvent_known_fails`) is not
ended; two speed actions of one entity run. -/
theorem unknown_event_fails : ∃ s, Exec (shape2 (fun _ => .speed) false false) (orc [1, 2, 6] []) s ∧
    Compete (shape2 (fun _ => .speed) false false) 8 6 ∧
    (s.st 6, s.st 8) = (.running, .running) := by
  obtain ⟨s, h1, h2⟩ := exec_of (sh := shape2 (fun _ => .speed) false false)
    (orc := orc [1, 2, 6] []) (n := 2) (g := fun s => (s.st 6, s.st 8))
    (l := (.running, .running)) (by decide)
  exact ⟨s, h1, by unfold Compete; decide, h2⟩

/-- C167 fails: competing init actions run side by side. -/
theorem init_actions_fails : ∃ s, Exec (shape2 (fun _ => .speed) true true) (orc [] []) s ∧
    Compete (shape2 (fun _ => .speed) true true) 9 10 ∧
    (s.st 9, s.st 10) = (.running, .running) := by
  obtain ⟨s, h1, h2⟩ := exec_of (sh := shape2 (fun _ => .speed) true true)
    (orc := orc [] []) (n := 1) (g := fun s => (s.st 9, s.st 10))
    (l := (.running, .running)) (by decide)
  exact ⟨s, h1, by unfold Compete; decide, h2⟩

/-- C167 fails: an injected speed action does not end the one of the event, ScenarioEngine.cpp:178-191. -/
theorem injected_fails : ∃ s t, Exec (shape2 (fun _ => .speed) true false) (orc [1, 2] []) s ∧
    injectedStep (shape2 (fun _ => .speed) true false) (orc [1, 2] []) enoughFuel 11 s = some t ∧
    Compete (shape2 (fun _ => .speed) true false) 11 6 ∧
    t.st 6 = .running ∧ t.st 11 = .running := by
  cases hs : runN (shape2 (fun _ => .speed) true false) (orc [1, 2] []) 1 with
  | none =>
    have : (runN (shape2 (fun _ => .speed) true false) (orc [1, 2] []) 1).isSome = true := by
      decide
    simp [hs] at this
  | some s =>
    have h : ((runN (shape2 (fun _ => .speed) true false) (orc [1, 2] []) 1).bind fun s =>
        (injectedStep (shape2 (fun _ => .speed) true false) (orc [1, 2] []) enoughFuel 11 s).map
          fun t => (t.st 6, t.st 11)) = some (.running, .running) := by decide
    rw [hs] at h
    simp only [Option.bind_some, Option.map_eq_some_iff, Prod.mk.injEq] at h
    obtain ⟨t, h1, h2⟩ := h
    exact ⟨s, t, runN_exec hs, h1, by unfold Compete; decide, h2⟩

end Ex

end Verif.Storyboard
