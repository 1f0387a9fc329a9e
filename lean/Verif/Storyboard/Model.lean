/-
Storyboard execution of the scenario engine.

Source: EnvironmentSimulator/Modules/ScenarioEngine/SourceFiles/StoryboardElement.{hpp,cpp},
Storyboard.{hpp,cpp}; tree construction in ScenarioReader.cpp:5220-5510.

Elements are natural numbers. The static tree (`Shape`) gives parents, children and the parsed
attributes, the dynamic state (`SB`) gives `state_` and `num_executions_` of every element, and a
log (newest first) of what the outside can observe.

Simplifications:
* What conditions evaluate to and when an action is finished is not modelled but supplied by an
  arbitrary `Oracle` consulted in program order (`SB.clock` counts the consultations); theorems
  quantify over all oracles.
* Condition state (`Trigger::Reset`) has no effect here for the same reason.
* Ghost restarts (`ScenarioEngine::ResetEvents`, called by a ghost's TeleportAction) and the
  adjusted start time they cause are not modelled. During ghost restart phases actions of
  non-ghosts are not stepped; that is covered by the oracle answering "nothing".
* C++ recursion is unbounded; here it is bounded by an explicit fuel argument, `none` means out of
  fuel (or a null parent pointer). `Verif.Storyboard.Theorems` shows a constant suffices.
-/
namespace Verif.Storyboard

/-- `StoryBoardElement::ElementType`, StoryboardElement.hpp:38-48. -/
inductive EType
  | storyBoard | story | act | maneuverGroup | maneuver | event | action
  deriving DecidableEq, Repr

/-- The enum value, which is also the depth of the element in the tree. -/
def EType.level : EType → Nat
  | storyBoard => 1 | story => 2 | act => 3 | maneuverGroup => 4
  | maneuver => 5 | event => 6 | action => 7

/-- `StoryBoardElement::State`, StoryboardElement.hpp:53-60 (the undefined state is never set). -/
inductive St
  | init | standby | running | complete
  deriving DecidableEq, Repr

/-- `StoryBoardElement::Transition`, StoryboardElement.hpp:62-70. -/
inductive Transition
  | start | «end» | stop | initToStby
  deriving DecidableEq, Repr

/-- `Event::Priority`, Storyboard.hpp:65-71. -/
inductive Prio
  | overwrite | skip | parallel | undefined
  deriving DecidableEq, Repr

/-- What an action's overridden `Start` does (OSCPrivateAction.cpp, OSCGlobalAction.cpp):
it may return before calling `OSCAction::Start` (e.g. OSCGlobalAction.cpp:239-249,
OSCPrivateAction.cpp:794-864, 1807-1811), call it and keep running, or call it and immediately
`End` (e.g. OSCPrivateAction.cpp:1181-1192, 1268, 856-857). -/
inductive ActStart
  | refuse | run | instant
  deriving DecidableEq, Repr

/-- What an action's `Step` does to the action's state: nothing, `OSCAction::End()` (private
actions) or `OSCAction::Stop()` (global actions, e.g. OSCGlobalAction.cpp:54-59). -/
inductive ActStep
  | nothing | ends | stops
  deriving DecidableEq, Repr

/-- Outcomes of triggers and actions, by consultation number. -/
structure Oracle where
  trig  : Nat → Bool
  start : Nat → ActStart
  step  : Nat → ActStep

/-- The static tree, as built by the parser (ScenarioReader.cpp:5220-5510 and, for init actions,
4321-4349). -/
structure Shape where
  parent   : Nat → Option Nat
  children : Nat → List Nat
  etype    : Nat → EType
  /-- `start_trigger_ != nullptr` -/
  hasStart : Nat → Bool
  /-- `stop_trigger_ != nullptr` -/
  hasStop  : Nat → Bool
  /-- `max_num_executions_`, -1 = unlimited -/
  maxExec  : Nat → Int
  prio     : Nat → Prio
  /-- `GetBaseType() == PRIVATE` -/
  isPrivate : Nat → Bool
  /-- `object_` of a private action -/
  object   : Nat → Option Nat
  /-- `GetDomains()`, control domain mask -/
  domains  : Nat → BitVec 4
  /-- same `action_type_` and `CheckConflictingLights` (OSCPrivateAction.cpp:3390-3409) -/
  lightConflict : Nat → Nat → Bool
  /-- `obj->initActions_` -/
  initActionsOf : Nat → List Nat
  /-- `obj->objectEvents_` -/
  objectEvents : Nat → List Nat
  root : Nat
  /-- `init_.global_action_`, `init_.user_defined_action_`, `init_.private_action_` -/
  initGlobal : List Nat
  initUser : List Nat
  initPrivate : List Nat

/-- Observable (and, for proofs, ghost) history. -/
inductive Entry
  /-- `SetState` announced a change (callback, record, trigger references). -/
  | change (e : Nat) (old : St) (tr : Transition) (new : St)
  /-- silent `Reset` of an element (StoryboardElement.cpp:367-386) -/
  | reset (e : Nat)
  /-- the start trigger of the element evaluated to true -/
  | trig (e : Nat)
  deriving DecidableEq, Repr

structure SB where
  st    : Nat → St
  num   : Nat → Nat
  clock : Nat
  log   : List Entry

/-- A freshly parsed storyboard: StoryboardElement.hpp:125-136. -/
def SB.fresh : SB := { st := fun _ => .init, num := fun _ => 0, clock := 0, log := [] }

def upd {α : Type} (f : Nat → α) (i : Nat) (v : α) : Nat → α := fun j => if j = i then v else f j

/-- `SetTransition(tr); SetState(new)`, StoryboardElement.cpp:331-365: announces and assigns only
if the state differs. -/
def setState (e : Nat) (tr : Transition) (new : St) (s : SB) : SB :=
  if s.st e = new then s
  else { s with st := upd s.st e new, log := .change e (s.st e) tr new :: s.log }

/-- `StoryBoardElement::AllChildrenComplete`, StoryboardElement.cpp:103-113. -/
def allChildrenComplete (sh : Shape) (e : Nat) (s : SB) : Bool :=
  (sh.children e).all fun c => s.st c = .complete

/-- `StoryBoardElement::AnyChildRunning`, StoryboardElement.cpp:115-126. -/
def anyChildRunning (sh : Shape) (e : Nat) (s : SB) : Bool :=
  (sh.children e).any fun c => s.st c = .running

/-- `StoryBoardElement::Reset`, StoryboardElement.cpp:367-386 (with the default state INIT; trigger
reset has no effect in this model). -/
def resetE (sh : Shape) : Nat → Nat → SB → Option SB
  | 0, _, _ => none
  | f + 1, e, s => do
    let s ← (sh.children e).foldlM (fun s c => resetE sh f c s) s
    some { s with st := upd s.st e .init, log := .reset e :: s.log }

/-- Body of `StoryBoardElement::End` between the child loop and the propagation,
StoryboardElement.cpp:263-310. -/
def endSelf (sh : Shape) (f e : Nat) (s : SB) : Option SB :=
  if s.st e = .running ∨ s.st e = .standby then
    if sh.etype e = .maneuverGroup ∨ sh.etype e = .event then
      if sh.maxExec e ≠ -1 ∧ (s.num e : Int) ≥ sh.maxExec e then
        some (setState e .end .complete s)
      else
        (sh.children e).foldlM (fun s c => resetE sh f c s) (setState e .end .standby s)
    else
      some (setState e .end .complete s)
  else
    some s

/-- `StoryBoardElement::End`, StoryboardElement.cpp:240-316, with
`PropagateStateFromChildren` (92-101) of the parent inlined at the end. -/
def endE (sh : Shape) : Nat → Nat → SB → Option SB
  | 0, _, _ => none
  | f + 1, e, s =>
    if s.st e = .complete then some s
    else do
      let s ← (sh.children e).foldlM
        (fun s c => if s.st c = .running then endE sh f c s else some s) s
      if s.st e = .complete then some s
      else do
        let s ← endSelf sh f e s
        match sh.parent e with
        | none => some s
        | some p =>
          if sh.etype p ≠ .storyBoard ∧ s.st p ≠ .complete ∧ allChildrenComplete sh p s = true then
            endE sh f p s
          else some s

/-- `parent_->PropagateStateFromChildren()` if there is a parent, StoryboardElement.cpp:92-101 and
234-237. -/
def propagateParent (sh : Shape) (f e : Nat) (s : SB) : Option SB :=
  match sh.parent e with
  | none => some s
  | some p =>
    if sh.etype p ≠ .storyBoard ∧ s.st p ≠ .complete ∧ allChildrenComplete sh p s = true then
      endE sh f p s
    else some s

/-- `StoryBoardElement::Stop`, StoryboardElement.cpp:207-238. -/
def stopE (sh : Shape) : Nat → Nat → SB → Option SB
  | 0, _, _ => none
  | f + 1, e, s => do
    let s ← (sh.children e).foldlM (fun s c => stopE sh f c s) s
    if s.st e = .init then some s
    else if s.st e = .complete then some s
    else propagateParent sh f e (setState e .stop .complete s)

/-- First half of `StoryBoardElement::Start`, StoryboardElement.cpp:130-148. -/
def startSelf (sh : Shape) (e : Nat) (s : SB) : SB :=
  if s.st e = .init ∧ sh.hasStart e = true then
    setState e .initToStby .standby s
  else if (s.st e = .init ∧ sh.hasStart e = false) ∨ s.st e = .standby ∨ s.num e ≠ 0 then
    let s := setState e .start .running s
    { s with num := upd s.num e (s.num e + 1) }
  else s

/-- `Start` of an action: one of the overrides in OSCPrivateAction.cpp / OSCGlobalAction.cpp,
abstracted by the oracle (see `ActStart`). -/
def actionStart (sh : Shape) (orc : Oracle) (f a : Nat) (s : SB) : Option SB :=
  let o := orc.start s.clock
  let s := { s with clock := s.clock + 1 }
  match o with
  | .refuse => some s
  | .run => some (startSelf sh a s)
  | .instant => endE sh f a (startSelf sh a s)

/-- `ControlDomainMasks::DOMAIN_MASK_LIGHT` -/
def maskLight : BitVec 4 := 4#4

/-- Does starting action `pa` terminate the running action `pa2`? Storyboard.cpp:222-251, 267-298. -/
def conflicts (sh : Shape) (pa pa2 : Nat) : Bool :=
  (sh.domains pa2 &&& sh.domains pa) ≠ 0#4 &&
    (if (sh.domains pa2 &&& maskLight) ≠ 0#4 then sh.lightConflict pa pa2 else true)

/-- Termination of conflicting init actions, Storyboard.cpp:216-253. -/
def endConflictingInit (sh : Shape) (f a obj : Nat) (s : SB) : Option SB :=
  (sh.initActionsOf obj).foldlM (fun s ia =>
    if sh.isPrivate ia = true ∧ s.st ia = .running ∧ conflicts sh a ia = true
    then endE sh f ia s else some s) s

/-- Termination of conflicting actions of the object's events, Storyboard.cpp:255-301. -/
def endConflictingEvents (sh : Shape) (f a obj : Nat) (s : SB) : Option SB :=
  (sh.objectEvents obj).foldlM (fun s ev =>
    (sh.children ev).foldlM (fun s pa2 =>
      if sh.isPrivate pa2 = true ∧ pa2 ≠ a ∧ sh.object pa2 = some obj ∧ s.st pa2 = .running ∧
          conflicts sh a pa2 = true
      then endE sh f pa2 s else some s) s) s

/-- Termination of ongoing actions on same object and domain, Storyboard.cpp:209-303. -/
def endConflicting (sh : Shape) (f a : Nat) (s : SB) : Option SB :=
  match (if sh.isPrivate a = true then sh.object a else none) with
  | some obj => do
      let s ← endConflictingInit sh f a obj s
      endConflictingEvents sh f a obj s
  | none => some s

/-- One round of the action loop in `Event::Start`, Storyboard.cpp:207-319. -/
def startOneAction (sh : Shape) (orc : Oracle) (f a : Nat) (s : SB) : Option SB := do
  let s ← endConflicting sh f a s
  actionStart sh orc f a s

/-- Priority check of `Event::Start`, Storyboard.cpp:135-192. Returns whether to start. -/
def eventPriority (sh : Shape) (f e m : Nat) (s : SB) : Option (Bool × SB) :=
  match sh.prio e with
  | .overwrite =>
    if s.st e = .running then some (false, s)
    else do
      let s ← (sh.children m).foldlM (fun s e' =>
        if e' ≠ e ∧ s.st e' = .running then endE sh f e' s else some s) s
      some (true, s)
  | .skip => some (!anyChildRunning sh m s, s)
  | .parallel => some (decide (s.st e ≠ .running), s)
  | .undefined => some (false, s)

/-- `Event::Start`, Storyboard.cpp:131-320. -/
def eventStart (sh : Shape) (orc : Oracle) (f e : Nat) (s : SB) : Option SB := do
  match sh.parent e with
  | none => none
  | some m => do
    let (go, s) ← eventPriority sh f e m s
    if go = false then some s
    else
      let s := startSelf sh e s
      if s.st e ≠ .running then some s
      else if sh.children e = [] then endE sh f e s
      else (sh.children e).foldlM (fun s a => startOneAction sh orc f a s) s

/-- Virtual `Start`: `StoryBoardElement::Start` (StoryboardElement.cpp:128-161), `Event::Start` or
an action's `Start`. -/
def startE (sh : Shape) (orc : Oracle) : Nat → Nat → SB → Option SB
  | 0, _, _ => none
  | f + 1, e, s =>
    match sh.etype e with
    | .action => actionStart sh orc f e s
    | .event => eventStart sh orc f e s
    | _ =>
      let s := startSelf sh e s
      if s.st e = .running then (sh.children e).foldlM (fun s c => startE sh orc f c s) s
      else some s

/-- Stop part of `StoryBoardElement::EvalTriggers`, StoryboardElement.cpp:176-188. -/
def evalStop (sh : Shape) (orc : Oracle) (f e : Nat) (s : SB) : Option SB :=
  if s.st e = .running ∧ sh.hasStop e = true then
    let v := orc.trig s.clock
    let s := { s with clock := s.clock + 1 }
    if v = true then do
      let s ← stopE sh f e s
      if sh.etype e = .storyBoard then stopE sh f e s else some s
    else some s
  else some s

/-- Start part of `StoryBoardElement::EvalTriggers`, StoryboardElement.cpp:190-196. -/
def evalStart (sh : Shape) (orc : Oracle) (f e : Nat) (s : SB) : Option SB :=
  if s.st e = .standby then
    if sh.hasStart e = false then startE sh orc f e s
    else
      let v := orc.trig s.clock
      let s := { s with clock := s.clock + 1 }
      if v = true then startE sh orc f e { s with log := .trig e :: s.log } else some s
  else some s

/-- `StoryBoardElement::EvalTriggers`, StoryboardElement.cpp:174-205. -/
def evalTriggers (sh : Shape) (orc : Oracle) : Nat → Nat → SB → Option SB
  | 0, _, _ => none
  | f + 1, e, s => do
    let s ← evalStop sh orc f e s
    let s ← evalStart sh orc f e s
    if s.st e = .running then
      (sh.children e).foldlM (fun s c => evalTriggers sh orc f c s) s
    else some s

/-- `action->Step` of a running action (guards: Storyboard.cpp:103, 112, 120, 326). -/
def actionStep (sh : Shape) (orc : Oracle) (f a : Nat) (s : SB) : Option SB :=
  if s.st a = .running then
    let o := orc.step s.clock
    let s := { s with clock := s.clock + 1 }
    match o with
    | .nothing => some s
    | .ends => endE sh f a s
    | .stops => stopE sh f a s
  else some s

/-- Virtual `Step`: `StoryBoardElement::Step` (StoryboardElement.cpp:163-172) and `Event::Step`
(Storyboard.cpp:322-354), which does not look at the event's own state. -/
def stepE (sh : Shape) (orc : Oracle) : Nat → Nat → SB → Option SB
  | 0, _, _ => none
  | f + 1, e, s =>
    match sh.etype e with
    | .action => actionStep sh orc f e s
    | .event => (sh.children e).foldlM (fun s a => actionStep sh orc f a s) s
    | _ =>
      if s.st e = .running then (sh.children e).foldlM (fun s c => stepE sh orc f c s) s
      else some s

/-- Init actions in the order they are started and stepped, Storyboard.cpp:78-91, 100-126. -/
def Shape.initActions (sh : Shape) : List Nat := sh.initGlobal ++ sh.initUser ++ sh.initPrivate

/-- `StoryBoard::Start`, Storyboard.cpp:75-94. -/
def sbStart (sh : Shape) (orc : Oracle) (f : Nat) (s : SB) : Option SB := do
  let s ← sh.initActions.foldlM (fun s a => actionStart sh orc f a s) s
  startE sh orc f sh.root s

/-- `StoryBoard::Step`, Storyboard.cpp:96-129. -/
def sbStep (sh : Shape) (orc : Oracle) (f : Nat) (s : SB) : Option SB := do
  let s ← evalTriggers sh orc f sh.root s
  let s ← sh.initActions.foldlM (fun s a => actionStep sh orc f a s) s
  stepE sh orc f sh.root s

/-- One externally injected action, ScenarioEngine.cpp:178-191. -/
def injectedStep (sh : Shape) (orc : Oracle) (f a : Nat) (s : SB) : Option SB :=
  if s.st a = .init ∨ s.st a = .standby then actionStart sh orc f a s
  else
    let o := orc.step s.clock
    let s := { s with clock := s.clock + 1 }
    match o with
    | .nothing => some s
    | .ends => endE sh f a s
    | .stops => stopE sh f a s

end Verif.Storyboard
