/-
Model of junction look-ups: EnvironmentSimulator/Modules/RoadManager/RoadManager.cpp lines 5738-5902
(class Connection, class Junction) and 1896-1969 (Road::GetConnectingLaneId).

Simplifications: a road is reduced to its id and the ids and types of the lanes of its sections;
connections are never null pointers (`AddConnection` stores what `new` returned); the log messages are
left out.  A null pointer dereference is `none`.
-/
namespace Verif.Junction

/-- A road: id and, per lane section, the lanes as (id, type bits). -/
structure Road where
  id : Nat
  sections : List (List (Int × Nat))
deriving Repr, DecidableEq

/-- `Connection`: incoming road (null pointer = `none`), connecting road, contact point, lane links
(from, to).  RoadManager.hpp, class Connection. -/
structure Conn where
  incoming : Option Road
  connecting : Road
  contact : Nat
  links : List (Int × Int)
deriving Repr, DecidableEq

/-- `LaneRoadLaneConnection`; the default one has lane 0, road `none` (ID_UNDEFINED), lane 0.
`contact` is left at its default (`none`) as well. -/
structure Result where
  lane : Int
  contact : Option Nat
  road : Option Nat
  toLane : Int
deriving Repr, DecidableEq

/-- Default constructed result. -/
def Result.default : Result := ⟨0, none, none, 0⟩

/-- `Connection::GetConnectingLaneId`, RoadManager.cpp 5743-5753. -/
def Conn.connectingLane (c : Conn) (lane : Int) : Int :=
  match c.links.find? (fun l => l.1 == lane) with
  | some l => l.2
  | none => 0

/-- Inner loop of `GetNumberOfRoadConnections`, 5781-5788. -/
def countLinks (lane : Int) : List (Int × Int) → Nat → Nat
  | [], n => n
  | l :: ls, n => countLinks lane ls (if lane = l.1 then n + 1 else n)

/-- `Junction::GetNumberOfRoadConnections`, 5772-5792. -/
def count (road : Nat) (lane : Int) : List Conn → Nat → Nat
  | [], n => n
  | c :: cs, n =>
    match c.incoming with
    | some r => if road = r.id then count road lane cs (countLinks lane c.links n) else count road lane cs n
    | none => count road lane cs n

/-- The look-up of the target lane, 5816-5826: dereferences the lane section of the connecting road;
`none` if there is none.  Its outcome is only logged. -/
def targetLane (r : Road) (to : Int) : Option Unit :=
  let i := if to < 0 then 0 else r.sections.length - 1
  match r.sections[i]? with
  | some _ => some ()
  | none => none

/-- Inner loop of `GetRoadConnectionByIdx`, 5803-5849: `.inl` the counter at the end, `.inr` the result
returned. -/
def findLink (c : Conn) (lane : Int) (idx : Nat) : List (Int × Int) → Nat → Option (Nat ⊕ Result)
  | [], n => some (.inl n)
  | l :: ls, n =>
    if lane = l.1 then
      if n = idx then
        match targetLane c.connecting l.2 with
        | some _ => some (.inr ⟨lane, some c.contact, some c.connecting.id, l.2⟩)
        | none => none
      else findLink c lane idx ls (n + 1)
    else findLink c lane idx ls n

/-- `Junction::GetRoadConnectionByIdx`, 5794-5853. -/
def byIdx (road : Nat) (lane : Int) (idx : Nat) : List Conn → Nat → Option Result
  | [], _ => some Result.default
  | c :: cs, n =>
    match c.incoming with
    | some r =>
      if road = r.id then
        match findLink c lane idx c.links n with
        | none => none
        | some (.inr x) => some x
        | some (.inl n') => byIdx road lane idx cs n'
      else byIdx road lane idx cs n
    | none => byIdx road lane idx cs n

/-- `Junction::GetNoConnectionsFromRoadId`, 5884-5898: the incoming road is not tested for null. -/
def countRoads (road : Nat) : List Conn → Nat → Option Nat
  | [], n => some n
  | c :: cs, n =>
    match c.incoming with
    | none => none
    | some r => countRoads road cs (if r.id = road then n + 1 else n)

/-- `Junction::GetConnectingRoadIdFromIncomingRoadId`, 5900-5920; `some none` is ID_UNDEFINED. -/
def roadByIdx (road : Nat) (idx : Nat) : List Conn → Nat → Option (Option Nat)
  | [], _ => some none
  | c :: cs, n =>
    match c.incoming with
    | none => none
    | some r =>
      if r.id = road then
        if n = idx then some (some c.connecting.id) else roadByIdx road idx cs (n + 1)
      else roadByIdx road idx cs n

/-- Loop of `Road::GetConnectingLaneId` over the connections of a junction, 1956-1965. -/
def laneLoop (cs : List Conn) (road : Nat) (lane : Int) (target : Nat) (n : Nat) : (i : Nat) → Option Int
  | i =>
    if _h : i < n then
      match byIdx road lane i cs 0 with
      | none => none
      | some x => if x.road = some target then some x.toLane else laneLoop cs road lane target n (i + 1)
    else some 0
  termination_by i => n - i

/-- `Road::GetConnectingLaneId`, 1896-1969, for a road whose link leads to a junction; `hasLane`: the
lane exists in the last (successor) or first (predecessor) section. -/
def throughJunction (cs : List Conn) (road : Nat) (hasLane : Bool) (lane : Int) (target : Nat) : Option Int :=
  if hasLane then laneLoop cs road lane target (count road lane cs 0) 0 else some 0

end Verif.Junction
