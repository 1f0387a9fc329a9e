import Verif.Common.Macros

/-
`LaneIndependentRouter`, /repo/EnvironmentSimulator/Modules/RoadManager/LaneIndependentRouter.cpp/.hpp.

Simplifications: `double` is exact. A road is named by its id, which is unique. A link pointer is the pair of road and link
value (a road has at most one link per type, `Road::GetLink`, RoadManager.cpp:3394-3404). Every junction link names an existing
junction (the code dereferences it unchecked). `Road::GetConnectingLaneId` is an arbitrary function. The priority queue
is any container that returns some node of least weight (`Picker`); this covers every behaviour of
`std::priority_queue` with `WeightCompare` (ties are decided by lane distance there). The chain of `previous` pointers is a list.
-/
namespace Verif.Router
open Verif.Common

/-- `LinkType`. -/
inductive LType | succ | pred
deriving DecidableEq, Repr

/-- `RoadLink::ElementType`. -/
inductive EType | road | junction | unknown
deriving DecidableEq, Repr

/-- `ContactPointType`. -/
inductive Contact | start | stop | undefined
deriving DecidableEq, Repr

/-- `RoadLink`. -/
structure Link where
  type : LType
  elem : EType
  elemId : Nat
  contact : Contact
deriving DecidableEq, Repr

/-- `Road::RoadType`. -/
inductive RType | unknown | rural | motorway | town | lowspeed | pedestrian | bicycle | townLocal | townPlay | townPrivate | other
deriving DecidableEq, Repr

/-- The used part of `Road`: first and last lane section as (lane id, is driving). -/
structure Road where
  id : Nat
  length : Rat
  succ : Option Link
  pred : Option Link
  first : List (Int × Bool)
  last : List (Int × Bool)
  types : List (RType × Rat)
deriving DecidableEq, Repr

/-- The used part of `Junction`: connections as (incoming road, connecting road). -/
structure Junction where
  direct : Bool
  conns : List (Nat × Nat)

/-- The used part of `OpenDrive`. -/
structure Net where
  roads : List Road
  junction : Nat → Junction
  /-- `currentRoad->GetConnectingLaneId(link, lane, nextRoadId)` -/
  connLane : Road → Link → Int → Nat → Int
  /-- a lane with that id exists at s and is a driving lane -/
  drivable : Nat → Rat → Int → Bool

/-- `Position::RouteStrategy`. -/
inductive Strategy | shortest | fastest | minInter
deriving DecidableEq, Repr

/-- The identity of a `Node`: road, lanes and link (`operator==`, LaneIndependentRouter.hpp:29-36). -/
structure Key where
  road : Road
  lane : Int
  fromLane : Int
  link : Option Link
deriving DecidableEq, Repr

/-- `Node`, LaneIndependentRouter.hpp:17-37: identity, weight and the identities of the previous nodes, latest first. -/
structure Node where
  key : Key
  weight : Rat
  prev : List Key

/-- A position as the router uses it: road, lane, s. -/
structure Pos where
  road : Nat
  lane : Int
  s : Rat

/-- `operator==` of nodes, LaneIndependentRouter.hpp:29-36 (roads compare by id). -/
def Key.same (a b : Key) : Bool := b.road.id == a.road.id && b.lane == a.lane && b.fromLane == a.fromLane && b.link == a.link

/-- `OpenDrive::GetRoadById`. -/
def Net.roadById (n : Net) (id : Nat) : Option Road := n.roads.find? (fun r => r.id == id)

/-- `Road::GetLink`, RoadManager.cpp:3394-3404. -/
def Road.getLink (r : Road) : LType → Option Link
  | .succ => r.succ
  | .pred => r.pred

/-- Default speeds, LaneIndependentRouter.cpp:430-498. -/
def defaultSpeed : RType → Rat
  | .pedestrian | .bicycle => 1389/1000
  | .lowspeed | .townPlay | .townPrivate => 8333/1000
  | .town | .townLocal => 13888/1000
  | .rural | .unknown => 19444/1000
  | .motorway => 25
  | .other => 19444/1000

/-- The speed of one road type entry, LaneIndependentRouter.cpp:430-498; other types always count with the default. -/
def typeSpeed (t : RType × Rat) : Rat := if t.1 ≠ .other ∧ t.2 > small then t.2 else defaultSpeed t.1

/-- `CalcAverageSpeed`, LaneIndependentRouter.cpp:415-503. -/
def avgSpeed (r : Road) : Rat :=
  if r.types.length = 0 then 19444/1000 else (r.types.foldl (fun a t => a + typeSpeed t) 0) / r.types.length

/-- `CalcWeight`, LaneIndependentRouter.cpp:525-555. -/
def calcWeight (st : Strategy) (link : Link) (len : Rat) (r : Road) : Rat :=
  match st with
  | .shortest => len
  | .fastest => if avgSpeed r = 0 then 10000000000 else len / avgSpeed r
  | .minInter => if link.elem = .junction then 1 else 0

/-- The length used by `CalcWeightWithPos`, LaneIndependentRouter.cpp:507-516. -/
def targetPart (link : Link) (tgt : Pos) (r : Road) : Rat :=
  match link.contact with
  | .start => tgt.s
  | .stop => r.length - tgt.s
  | .undefined => 0

/-- `GetNextRoads`, LaneIndependentRouter.cpp:64-91, with `Junction::GetNoConnectionsFromRoadId` and
`GetConnectingRoadIdFromIncomingRoadId`, RoadManager.cpp:5886-5922. -/
def nextRoads (n : Net) (link : Link) (cur : Road) : List Road :=
  match link.elem with
  | .road => (n.roadById link.elemId).toList
  | .junction => ((n.junction link.elemId).conns.filter (fun c => c.1 == cur.id)).filterMap (fun c => n.roadById c.2)
  | .unknown => []

/-- `GetNextLink`, LaneIndependentRouter.cpp:93-132. -/
def nextLink (n : Net) (cur : Road) (link : Link) (next : Road) : Option Link :=
  match link.elem with
  | .road => if link.contact = .stop then next.pred else next.succ
  | .junction =>
    if next.succ.map (·.elemId) = some (if (n.junction link.elemId).direct then link.elemId else cur.id) then next.pred
    else if next.pred.map (·.elemId) = some (if (n.junction link.elemId).direct then link.elemId else cur.id) then next.succ
    else none
  | .unknown => none

/-- The lanes of the section at the end where the link is, LaneIndependentRouter.cpp:134-143. -/
def endLanes (cur : Road) (link : Link) : List (Int × Bool) :=
  match link.type with
  | .succ => cur.last
  | .pred => cur.first

/-- `GetConnectingLanes`, LaneIndependentRouter.cpp:134-164. -/
def connectingLanes (n : Net) (k : Key) (link : Link) (next : Road) : List (Int × Int) :=
  (endLanes k.road link).filterMap fun l =>
    if l.2 = true ∧ signI l.1 = signI k.lane ∧ l.1 ≠ 0 then
      if n.connLane k.road link l.1 next.id ≠ 0 then some (l.1, n.connLane k.road link l.1 next.id) else none
    else none

/-- One round of the loop of `GetNextNodes`, LaneIndependentRouter.cpp:30-60, with `CreateTargetNode` 165-178. -/
def nextNode (n : Net) (st : Strategy) (tgt : Pos) (v : Node) (link : Link) (next : Road) (p : Int × Int) : Option Node :=
  if next.id = tgt.road ∧ p.2 = tgt.lane then
    some { key := { road := next, lane := p.2, fromLane := p.1, link := none },
           weight := v.weight + calcWeight st link (targetPart link tgt next) next, prev := v.key :: v.prev }
  else match nextLink n v.key.road link next with
    | none => none
    | some nl => some { key := { road := next, lane := p.2, fromLane := p.1, link := some nl },
                        weight := v.weight + calcWeight st link next.length next, prev := v.key :: v.prev }

/-- `GetNextNodes` for all next roads, LaneIndependentRouter.cpp:19-62 and 203-211. -/
def nextNodes (n : Net) (st : Strategy) (tgt : Pos) (v : Node) : List Node :=
  match v.key.link with
  | none => []
  | some link => (nextRoads n link v.key.road).flatMap fun r =>
      (connectingLanes n v.key link r).filterMap fun p => nextNode n st tgt v link r p

/-- The test for the target, LaneIndependentRouter.cpp:194-199. -/
def isGoal (tgt : Pos) (k : Key) : Bool := k.road.id == tgt.road && k.lane == tgt.lane

/-- Lane change towards a node; the start node has no predecessor, but it is alone in the queue and never compared. -/
def Node.laneShift (a : Node) : Nat :=
  match a.prev with
  | [] => 0
  | k :: _ => (a.key.lane - k.lane).natAbs

/-- `WeightCompare`, LaneIndependentRouter.hpp:43-63: `a` comes out after `b`. -/
def weightCompare (a b : Node) : Bool :=
  if a.weight = b.weight then decide (a.laneShift > b.laneShift) else decide (a.weight > b.weight)

/-- `top()` and `pop()` of the queue. -/
abbrev Picker := List Node → Option (Node × List Node)

/-- `FindGoal`, LaneIndependentRouter.cpp:180-215: `none` if the fuel does not suffice. -/
def findGoal (n : Net) (st : Strategy) (tgt : Pos) (pick : Picker) : Nat → List Node → List Node → Option (Option Node)
  | 0, _, _ => none
  | fuel + 1, q, vis =>
    match pick q with
    | none => some none
    | some (v, q') =>
      if vis.any (fun u => u.key.same v.key) then findGoal n st tgt pick fuel q' vis
      else if isGoal tgt v.key then some (some v)
      else findGoal n st tgt pick fuel (q' ++ nextNodes n st tgt v) (v :: vis)

/-- `IsPositionValid`, LaneIndependentRouter.cpp:217-235. -/
def validPos (n : Net) (p : Pos) : Bool :=
  match n.roadById p.road with
  | none => false
  | some r => decide (¬(p.s > r.length ∨ p.s < 0)) && n.drivable p.road p.s p.lane

/-- `CreateStartNode`, LaneIndependentRouter.cpp:237-273. -/
def startWeight (st : Strategy) (r : Road) (fwd : Bool) (s : Rat) : Rat :=
  match st with
  | .shortest => if fwd then r.length - s else s
  | .fastest => (if fwd then r.length - s else s) / avgSpeed r
  | .minInter => 0

/-- `CalculatePath`, LaneIndependentRouter.cpp:275-352; `fwd` is `isInForwardDirection`. The result lists the identities from
start to target, with the weight of the last node. -/
def calculatePath (n : Net) (st : Strategy) (pick : Picker) (fuel : Nat) (start : Pos) (fwd : Bool) (tgt : Pos) :
    Option (List Key × Rat) :=
  if validPos n start = false then some ([], 0)
  else if validPos n tgt = false then some ([], 0)
  else match n.roadById start.road with
    | none => some ([], 0)
    | some r =>
      if start.road = tgt.road ∧ start.lane = tgt.lane then some ([], 0)
      else match r.getLink (if fwd then .succ else .pred) with
        | none => some ([], 0)
        | some l =>
          (findGoal n st tgt pick fuel
            [{ key := { road := r, lane := start.lane, fromLane := 0, link := some l }, weight := startWeight st r fwd start.s,
               prev := [] }] []).map fun
            | none => ([], 0)
            | some v => ((v.key :: v.prev).reverse, v.weight)

end Verif.Router
