import Verif.Transition.SpeedModel
import Verif.LaneArith.Theorems
/-
OSI traffic commands.
Code: EnvironmentSimulator/Modules/ScenarioEngine/SourceFiles/OSITrafficCommand.cpp:16-236, OSIReporter.cpp:3290-3311, OSIReporter.hpp:188-191,
StoryboardElement.cpp:354-361.

Simplifications
* A pose is a value of any type `P`; those of teleport and acquire actions are the evaluated ones.
* The command is the message that `SE_GetOSITrafficCommandRaw` returns; the serialized copy is not modelled.
* The state of the entities is that at the time of the report.
-/
namespace Verif.Tc
open Verif.Transition (Dim Shape distanceTime relativeValue)
open Verif.LaneArith

/-- Target of a lane change: a lane, or a number of lanes from that of an entity in `refLane` heading along the road if `forward`. -/
inductive LaneTarget
  | absolute (lane : Int)
  | relative (refLane : Int) (forward : Bool) (value : Int)

/-- `Target::value_` of a lane change. -/
def LaneTarget.value : LaneTarget → Int
  | .absolute lane => lane
  | .relative _ _ v => v

/-- Target of a speed action. -/
inductive SpeedTarget
  | absolute (speed : ℝ)
  | relative (refSpeed : ℝ) (factor : Bool) (value : ℝ)

/-- The dynamics as written in the scenario. -/
structure Dyn where
  dim : Dim
  shape : Shape
  value : ℝ

/-- Private actions. A speed action over a distance has been `converted` when it started, from a speed to a target, unless a controller
had the longitudinal domain. -/
inductive Act (P : Type)
  | laneChange (dyn : Dyn) (target : LaneTarget)
  | speed (dyn : Dyn) (converted : Option (ℝ × ℝ)) (target : SpeedTarget)
  | teleport (pos : P)
  | route (points : List P)
  | acquire (pos : P)
  | other

/-- An entity, as far as it is used. -/
structure Obj where
  id : Nat
  lane : Int
  speed : ℝ

/-- An action with its entity. -/
structure Action (P : Type) where
  id : Nat
  obj : Option Obj
  act : Act P

/-- `Transition` and `State`, as far as distinguished. -/
inductive Change
  | started | other
deriving DecidableEq

/-- `osi3::TrafficAction`. -/
inductive TA (P : Type)
  | laneChange (id : Nat) (distance duration : ℝ) (shape : Shape) (relativeLane : Int)
  | speed (id : Nat) (distance duration : ℝ) (shape : Shape) (speed : ℝ)
  | teleport (id : Nat) (pos : P)
  | path (id : Nat) (points : List P)
  | acquire (id : Nat) (pos : P)

/-- `osi3::TrafficCommand`: seconds and nanoseconds, participant, actions. -/
structure Cmd (P : Type) where
  stamp : Option (Int × Nat)
  participant : Option Nat
  actions : List (TA P)

/-- `Clear`. -/
def Cmd.empty {P : Type} : Cmd P := ⟨none, none, []⟩

/-- Conversion to a whole number, towards zero. -/
noncomputable def toInt (x : ℝ) : Int := if 0 ≤ x then ⌊x⌋ else ⌈x⌉

/-- The timestamp, OSITrafficCommand.cpp:18-20. -/
noncomputable def stampOf (time : ℝ) : Int × Nat := (toInt time, ⌊(time - ⌊time⌋) * 1000000000⌋₊)

/-- `GetParamTargetVal` of a speed action when it is reported, OSCPrivateAction.cpp:1196-1234. -/
noncomputable def speedParam (dyn : Dyn) : Option (ℝ × ℝ) → ℝ
  | some (v0, v1) => if dyn.dim = .distance then distanceTime v0 v1 dyn.value else dyn.value
  | none => dyn.value

/-- The two extents, OSITrafficCommand.cpp:41-56, 103-118. -/
noncomputable def extent (dim : Dim) (value : ℝ) : ℝ × ℝ :=
  if dim = .distance then (value, 0) else if dim = .time then (0, value) else (0, 0)

/-- The lane of the command, OSITrafficCommand.cpp:80-87. -/
def reportedLane (own : Int) : LaneTarget → Int
  | .absolute lane => lane
  | .relative _ _ v => getLaneIdDelta own v

/-- The speed of the command, OSITrafficCommand.cpp:142-149. -/
noncomputable def reportedSpeed (own : ℝ) : SpeedTarget → ℝ
  | .absolute v => v
  | .relative _ _ v => own + v

/-- The entry for an action, OSITrafficCommand.cpp:28-233. -/
noncomputable def entry {P : Type} (o : Obj) (id : Nat) : Act P → Option (TA P)
  | .laneChange dyn t => some (.laneChange id (extent dyn.dim dyn.value).1 (extent dyn.dim dyn.value).2 dyn.shape (reportedLane o.lane t))
  | .speed dyn c t =>
    some (.speed id (extent dyn.dim (speedParam dyn c)).1 (extent dyn.dim (speedParam dyn c)).2 dyn.shape (reportedSpeed o.speed t))
  | .teleport p => some (.teleport id p)
  | .route ps => some (.path id ps)
  | .acquire p => some (.acquire id p)
  | .other => none

/-- A command with one more entry, if any. -/
def addEntry {P : Type} (tc : Cmd P) (o : Obj) : Option (TA P) → Cmd P
  | none => tc
  | some e => { tc with participant := some o.id, actions := tc.actions ++ [e] }

/-- `ReportTrafficCommand`, OSITrafficCommand.cpp:16-236. -/
noncomputable def report {P : Type} (time : ℝ) (tc : Cmd P) (a : Action P) : Cmd P :=
  match a.obj with
  | none => { tc with stamp := some (stampOf time) }
  | some o => addEntry { tc with stamp := some (stampOf time) } o (entry o a.id a.act)

/-- The actions of the changes that are reported, OSIReporter.cpp:3302. -/
def startedOf {P : Type} (changes : List (Action P × Change)) : List (Action P) :=
  (changes.filter (fun c => decide (c.2 = .started))).map (·.1)

/-- The reporter: collected changes and the command. -/
structure Reporter (P : Type) where
  changes : List (Action P × Change)
  cmd : Cmd P

/-- `RegisterTrafficCommandStateChange`, OSIReporter.hpp:188-191. -/
def register {P : Type} (r : Reporter P) (a : Action P) (c : Change) : Reporter P := { r with changes := r.changes ++ [(a, c)] }

/-- `UpdateOSITrafficCommand`, OSIReporter.cpp:3290-3311. -/
noncomputable def update {P : Type} (time : ℝ) (r : Reporter P) : Reporter P :=
  ⟨[], (startedOf r.changes).foldl (report time) .empty⟩

end Verif.Tc
