import Verif.Common.Macros
/-
Simulation time, true time and the ghost restart mode of the scenario engine and the player.

Modelled: ScenarioEngine.cpp:51-66 (initial values), 120-134 (UpdateGhostMode), 136-209 (step, the parts that concern
time), 564-572 (head start at load), OSCPrivateAction.cpp:2387-2389 (a ghost restart by teleport),
PlayerBase/playerbase.cpp:183-216 (ScenarioPlayer::Frame), 269-312 (ScenarioFrame).

Simplifications: what the storyboard does in a step is an input (does it start a restarting teleport of the ghost, is it still
running afterwards); a request to quit shows as a storyboard that is not running any more; the player is not paused.
-/
namespace Verif.Engine

open Verif.Common

/-- `GhostMode`, CommonMini.hpp. -/
inductive Mode where
  | normal | restart | restarting
deriving DecidableEq

/-- `simulationTime_`, `trueTime_`, and ghost mode and head start of SE_Env. -/
structure Clock where
  sim : Rat
  tru : Rat
  head : Rat
  mode : Mode
deriving DecidableEq

/-- What happens in one step apart from time. -/
structure Input where
  /-- the storyboard starts a teleport of the ghost marked as restart -/
  restart : Bool
  /-- the storyboard is running after its step -/
  run : Bool
deriving DecidableEq

/-- ScenarioEngine.cpp:51-66 and 564-572: the head start is raised from 0 to that of the ghost, if there is one. -/
def load (ghostHead : Rat) : Clock :=
  if ghostHead > 0 then ⟨0, 0, ghostHead, .restart⟩ else ⟨0, 0, 0, .normal⟩

/-- `ScenarioEngine::UpdateGhostMode`, ScenarioEngine.cpp:120-134. -/
def updateGhostMode (c : Clock) : Clock :=
  match c.mode with
  | .restart => { c with sim := c.sim - c.head, mode := .restarting }
  | .restarting => if c.sim > c.tru - small then { c with mode := .normal } else c
  | .normal => c

/-- `TeleportAction::Start` of a ghost restart, OSCPrivateAction.cpp:2387-2389. -/
def teleport (restart : Bool) (c : Clock) : Clock :=
  if restart && decide (c.sim > small) then { c with mode := .restart } else c

/-- `-0.000` is avoided, ScenarioEngine.cpp:199-204. -/
def tick (t : Rat) : Rat := if t < 0 ∧ t > -small then 0 else t

/-- ScenarioEngine.cpp:199-209. -/
def advance (dt : Rat) (c : Clock) : Clock :=
  { c with sim := tick (c.sim + dt), tru := if tick (c.sim + dt) > c.tru then tick (c.sim + dt) else c.tru }

/-- `ScenarioEngine::step`, ScenarioEngine.cpp:136-209; the second part of the result is the return value 0 or 1. -/
def step (dt : Rat) (i : Input) (c : Clock) : Clock × Bool :=
  if i.run then (advance dt (teleport i.restart (updateGhostMode c)), false)
  else (teleport i.restart (updateGhostMode c), true)

/-- `ScenarioPlayer::ScenarioFrame`, playerbase.cpp:269-314. -/
def scenarioFrame (dt : Rat) (i : Input) (c : Clock) : Clock × Bool :=
  (updateGhostMode (step dt i c).1, (step dt i c).2)

/-- The loop of `ScenarioPlayer::Frame` that lets the ghost run alone, playerbase.cpp:204-214. `ins` are the inputs of the steps to come;
`none` if the loop is not done after `fuel` rounds. -/
def soloLoop (dt : Rat) (ins : Nat → Input) : Nat → Nat → Clock × Bool → Option (Clock × Bool)
  | 0, _, r => if r.2 = false ∧ r.1.mode ≠ .normal then none else some r
  | fuel + 1, k, r => if r.2 = false ∧ r.1.mode ≠ .normal then soloLoop dt ins fuel (k + 1) (scenarioFrame dt (ins k) r.1) else some r

/-- `ghost_solo_dt`, playerbase.cpp:186. -/
def soloDt (fixed : Rat) : Rat := if fixed < 0 then 1 / 20 else fixed

/-- `ScenarioPlayer::Frame`, playerbase.cpp:183-216. -/
def frame (fixed dt : Rat) (ins : Nat → Input) (fuel : Nat) (c : Clock) : Option (Clock × Bool) :=
  soloLoop (soloDt fixed) ins fuel 1 (scenarioFrame dt (ins 0) c)

end Verif.Engine
