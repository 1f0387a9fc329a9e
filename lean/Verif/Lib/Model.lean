/-
Injected actions, object callbacks and permitted lane changes of the library.
Code: EnvironmentSimulator/Modules/PlayerBase/PlayerServer.cpp:49-102, 234-253, EnvironmentSimulator/Modules/PlayerBase/playerbase.cpp:184-286,
2133-2141, EnvironmentSimulator/Modules/ScenarioEngine/SourceFiles/ScenarioEngine.cpp:177-191, StoryboardElement.cpp:128-149, 240-313,
EnvironmentSimulator/Libraries/esminiLib/esminiLib.cpp:62-89, 1532-1632, 2434-2455,
EnvironmentSimulator/Modules/RoadManager/RoadManager.cpp:4380-4411.

Simplifications
* An injected action is its number, type, object and state. What its `Start` and `Step` do to the object is left open, except whether they end it,
  which is any choice per frame and action. Injected actions have no start trigger, children or parent, so `STANDBY` is not reached.
* Injections happen between frames; the lock against the server thread is not modelled. Frames are those with the player neither paused nor ended.
* User data and callback functions are values of any type.
-/
namespace Verif.Lib

/-! ### Injected actions -/

/-- `StoryBoardElement::State`, those reached by an injected action. -/
inductive St
  | init
  | running
  | complete
deriving DecidableEq, Repr

/-- An injected action (PlayerServer.cpp:171-231). -/
structure Act where
  id : Nat
  typ : Nat
  obj : Nat
  st : St
deriving DecidableEq, Repr

/-- `StoryBoardElement::End` for an action: from the initial state the request is refused (StoryboardElement.cpp:240-307). -/
def endSt : St → St
  | .running => .complete
  | .complete => .complete
  | .init => .init

/-- The test of `AddAction`; all injected actions are private (PlayerServer.cpp:56-58). -/
def sameKey (a b : Act) : Bool := decide (a.typ = b.typ) && decide (a.obj = b.obj)

/-- `AddAction` on one action of the list (PlayerServer.cpp:54-66). -/
def stopOld (new : Act) (a : Act) : Act := bif sameKey a new then { a with st := endSt a.st } else a

/-- `PlayerServer::AddAction` (PlayerServer.cpp:49-73). -/
def inject (new : Act) (l : List Act) : List Act := l.map (stopOld new) ++ [{ new with st := .init }]

/-- State of an action after being started or stepped by the engine; `fin` tells whether that ends it. -/
def nextSt (fin : Bool) : St → St
  | .init => bif fin then .complete else .running
  | .running => bif fin then .complete else .running
  | .complete => .complete

/-- One action of the loop of the engine (ScenarioEngine.cpp:180-190). -/
def stepAct (fin : Nat → Bool) (a : Act) : Act := { a with st := nextSt (fin a.id) a.st }

/-- The loop of the engine over injected actions (ScenarioEngine.cpp:177-191). -/
def engineStep (fin : Nat → Bool) (l : List Act) : List Act := l.map (stepAct fin)

/-- The actions whose `Step` is called by the engine (ScenarioEngine.cpp:182-189). -/
def stepped (l : List Act) : List Act := l.filter fun a => decide (a.st ≠ .init)

/-- The loop of `PlayerServer::Step` from index `i`; after a removal the index is advanced twice (PlayerServer.cpp:90-100). -/
def serverLoop (l : List Act) (i : Nat) : List Act :=
  if h : i < l.length then
    bif decide ((l[i]).st = .complete) then serverLoop (l.eraseIdx i) (i + 2) else serverLoop l (i + 1)
  else l
termination_by l.length - i
decreasing_by
  · have := List.length_eraseIdx_of_lt h
    omega
  · omega

/-- A frame of the player, as far as injected actions go (playerbase.cpp:200, 233-236). -/
def frame (fin : Nat → Bool) (l : List Act) : List Act := serverLoop (engineStep fin l) 0

/-- `SE_InjectedActionOngoing` for any action (PlayerServer.cpp:236-239). -/
def ongoingAny (l : List Act) : Bool := decide (0 < l.length)

/-- `SE_InjectedActionOngoing` for a type (PlayerServer.cpp:240-252). -/
def ongoing (t : Nat) (l : List Act) : Bool := l.any fun a => decide (a.typ = t)

/-- What the user and the simulation do to the list. -/
inductive Ev
  | inject (a : Act)
  | frame (fin : Nat → Bool)

/-- One such event. -/
def step : Ev → List Act → List Act
  | .inject a, l => inject a l
  | .frame fin, l => frame fin l

/-- A sequence of events. -/
def run (es : List Ev) (l : List Act) : List Act := es.foldl (fun l e => step e l) l

/-! ### Object callbacks -/

/-- The registrations of the library and of the player (esminiLib.cpp:50-57, playerbase.hpp:283). -/
structure Cbs (F D : Type) where
  lib : List (Int × F)
  pl : List (Int × D)

variable {F D : Type}

/-- `SE_RegisterObjectCallback` (esminiLib.cpp:2447-2455, playerbase.cpp:2133-2141). -/
def register (i : Int) (f : F) (d : D) (c : Cbs F D) : Cbs F D := { lib := c.lib ++ [(i, f)], pl := c.pl ++ [(i, d)] }

/-- `SE_Close` and a following initialization: a new player, the list of the library stays (esminiLib.cpp:62-89). -/
def restart (c : Cbs F D) : Cbs F D := { c with pl := [] }

/-- `objCallbackFn` (esminiLib.cpp:2434-2445). -/
def forward (c : Cbs F D) (i : Int) (d : D) : List (F × Int × D) := (c.lib.filter fun r => decide (r.1 = i)).map fun r => (r.2, i, d)

/-- The calls of one frame: function, object and user data (playerbase.cpp:279-286). -/
def calls (ex : Int → Bool) (c : Cbs F D) : List (F × Int × D) :=
  c.pl.flatMap fun r => bif ex r.1 then forward c r.1 r.2 else []

/-- A user's registration. -/
structure Reg (F D : Type) where
  id : Int
  fn : F
  data : D

/-- All registrations of a user, in order. -/
def registerAll (rs : List (Reg F D)) (c : Cbs F D) : Cbs F D := rs.foldl (fun c r => register r.id r.fn r.data c) c

/-! ### Permitted lane changes -/

/-- `LaneRoadMark::RoadMarkLaneChange`. -/
inductive LC
  | increase
  | decrease
  | both
  | none
deriving DecidableEq, Repr

/-- The attribute `laneChange` as read; without it no change is permitted (RoadManager.cpp:4380-4411). -/
def readLC : Option LC → LC
  | some c => c
  | .none => .none

/-- A road mark: its start from the lane section, and the attribute `laneChange` of the file. -/
structure Mark where
  sOffset : Rat
  attr : Option LC

/-- A lane with its road marks. -/
structure Lane where
  id : Int
  driving : Bool
  marks : List Mark

/-- A lane section. -/
structure Sec where
  s : Rat
  lanes : List Lane

/-- `LaneSection::GetLaneById` (RoadManager.cpp:2118-2128). -/
def Sec.lane? (x : Sec) (id : Int) : Option Lane := x.lanes.find? fun l => decide (l.id = id)

/-- `Lane::IsDriving` (RoadManager.cpp:1712-1720). -/
def Lane.isDriving (l : Lane) : Bool := bif decide (l.id = 0) then false else l.driving

/-- `Road::GetDrivingLaneById` being found (RoadManager.cpp:3100-3110). -/
def hasDriving (x : Sec) (id : Int) : Bool := (x.lane? id).any Lane.isDriving

/-- One step of the loop of `GetRoadMarkAtS`. -/
def markStep (x : Sec) (s : Rat) (act : Option Mark) (m : Mark) : Option Mark := bif decide (x.s + m.sOffset ≤ s) then some m else act

/-- `GetRoadMarkAtS` (esminiLib.cpp:1532-1554). -/
def markAt (x : Sec) (l : Option Lane) (s : Rat) : Option Mark := l.bind fun l => l.marks.foldl (markStep x s) Option.none

/-- `RoadMarkAllowsLaneChange` (esminiLib.cpp:1556-1581). -/
def allows (m : Option Mark) (up : Bool) : Bool :=
  match m with
  | Option.none => true
  | some m =>
    match readLC m.attr with
    | .both => true
    | .none => false
    | .increase => up
    | .decrease => !up

/-- Lane change to the left as reported (esminiLib.cpp:1610, 1617-1622). -/
def canLeft (x : Sec) (s : Rat) (id : Int) : Bool :=
  decide (id + 1 ≠ 0) && hasDriving x (id + 1) &&
    allows (markAt x (bif decide (0 < id) then x.lane? id else x.lane? (id + 1)) s) true

/-- Lane change to the right as reported (esminiLib.cpp:1611, 1624-1629). -/
def canRight (x : Sec) (s : Rat) (id : Int) : Bool :=
  decide (id - 1 ≠ 0) && hasDriving x (id - 1) &&
    allows (markAt x (bif decide (id < 0) then x.lane? id else x.lane? (id - 1)) s) false

/-- `SE_ObjectCanChangeLanes` for an object on a road (esminiLib.cpp:1591-1632). -/
def canChange (x : Sec) (s : Rat) (id : Int) : Nat :=
  bif decide (id = 0) then 0
  else bif hasDriving x id then (bif canLeft x s id then 1 else 0) + (bif canRight x s id then 2 else 0)
  else 0

end Verif.Lib
