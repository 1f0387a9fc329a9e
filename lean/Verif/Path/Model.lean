import Verif.Move.Model
/-
Model of the distance along the road network between two positions:
EnvironmentSimulator/Modules/RoadManager/RoadManager.cpp 5886-5925 (connections from a road),
3187-3255 (`IsDirectlyConnected`), 5975-6093 (`RoadPath::CheckRoad`), 6095-6372 (`RoadPath::Calculate`),
11708-11817 (`Position::Delta`); RoadManager.hpp 5206-5249.

Simplifications
* Doubles are rational numbers.
* A link is identified by the road and the end it belongs to (the code compares pointers; every road
  allocates its own links).  A road without a link at an end has `none` there.
* Which lane a lane leads to is a parameter of the network: `enter` is `Road::GetConnectingLaneId` (modelled
  in `Verif/Junction`), `laneAt` is `Road::GetConnectedLaneIdAtS` (modelled in `Verif/Road`).
* Headings are reduced to whether they point along the road; whether the heading is found to be against the
  driving direction (6364) is a parameter of the start.
* Of the chain `previous` only its root is used (6330-6358), so a node carries the end its root belongs to.
* Contact points of connections are defined, and connecting roads exist (they are pointers in the code).
-/
namespace Verif.Path
open Verif.Move (End Link)

/-- The other end. -/
def other : End → End
  | .start => .finish
  | .finish => .start

/-- `Link::GetElementId`. -/
def linkId : Link → Nat
  | .road id _ => id
  | .junction id => id

/-- `Road`: length and links. -/
structure Road where
  len : Rat
  pred : Option Link
  succ : Option Link
deriving DecidableEq, Repr

/-- `Road::GetLink`. -/
def Road.link (r : Road) : End → Option Link
  | .start => r.pred
  | .finish => r.succ

/-- `Connection`. -/
structure Conn where
  incoming : Nat
  connecting : Nat
  contact : End
deriving DecidableEq, Repr

/-- `Junction`: whether it is direct, and its connections. -/
structure Junction where
  direct : Bool
  conns : List Conn
deriving DecidableEq, Repr

/-- The network. -/
structure Net where
  roads : Nat → Option Road
  junctions : Nat → Option Junction
  /-- lane on the next road: road, end at which it is left, lane, next road; 0: none -/
  enter : Nat → End → Int → Nat → Int
  /-- lane at another place of a road: road, lane, from, to; -1: end of the road -/
  laneAt : Nat → Int → Rat → Rat → Int

/-- `PathNode`: the link (road and end), the distance, the lane there, the end its root belongs to. -/
structure Node where
  road : Nat
  exit : End
  dist : Rat
  lane : Int
  root : End
deriving DecidableEq, Repr

/-- LARGE_NUMBER -/
def large : Rat := 10000000000

/-- The end at which a road entered from `src` is left, `CheckRoad` 5987-6039. -/
def exitOf (net : Net) (src : Node) (link : Link) (next : Road) : Option End :=
  match link with
  | .road _ c => some (other c)
  | .junction j =>
    let id := match net.junctions j with
      | some x => if x.direct then j else src.road
      | none => src.road
    if next.succ.map linkId = some id then some .start
    else if next.pred.map linkId = some id then some .finish
    else none

/-- The lane at the end where a road is left, 6046-6053. -/
def across (net : Net) (road : Nat) (exit : End) (lane : Int) : Int :=
  match exit with
  | .start => net.laneAt road lane (-1) 0
  | .finish => net.laneAt road lane 0 (-1)

/-- The update of the distance of a node for the same link, 6066-6077. -/
def relax (road : Nat) (exit : End) (d : Rat) (u : Node) : Node :=
  if u.road = road ∧ u.exit = exit ∧ d < u.dist then { u with dist := d } else u

/-- The node added for a link, 6079-6090.  It is added even if there is one for the same link already, since
the loop before runs to its end. -/
def addNode (net : Net) (unv : List Node) (src : Node) (next : Nat) (exit : End) (len : Rat) : List Node :=
  unv.map (relax next exit (src.dist + len)) ++
    [⟨next, exit, src.dist + len, across net next exit (net.enter src.road src.exit src.lane next), src.root⟩]

/-- `RoadPath::CheckRoad`, 5975-6093: the unvisited nodes afterwards. -/
def checkRoad (net : Net) (vis : List (Nat × End)) (unv : List Node) (src : Node) (link : Link) (next : Nat)
    (r : Road) : List Node :=
  if net.enter src.road src.exit src.lane next = 0 then unv
  else
    match exitOf net src link r with
    | none => unv
    | some e =>
      if r.link e = none then unv
      else if (next, e) ∈ vis then unv
      else addNode net unv src next e r.len

/-- The contact point of the target road with the pivot road, one end of the pivot road:
`IsDirectlyConnected`, 3187-3245, with lane 0. -/
def contactVia (net : Net) (pivot : Road) (pivotId target : Nat) (e : End) : Option End :=
  match pivot.link e with
  | none => none
  | some (.road id c) => if id = target then some c else none
  | some (.junction j) =>
    match net.junctions j with
    | none => none
    | some x => (x.conns.find? fun k => decide (k.incoming = pivotId ∧ k.connecting = target)).map Conn.contact

/-- Distance from the end at which a road is entered to the target. -/
def entry (c : End) (len s : Rat) : Rat :=
  match c with
  | .start => s
  | .finish => len - s

/-- What becomes of a node: the new unvisited nodes, the distance so far, whether the target is found. -/
inductive Out
  /-- a null pointer is used -/
  | crash
  /-- -1 is returned -/
  | fail
  | go (unv : List Node) (dist : Rat) (found : Bool)
deriving DecidableEq, Repr

/-- The loop over the connections of a junction from the pivot road, 6284-6323. -/
def conns (net : Net) (vis : List (Nat × End)) (src : Node) (pivot : Road) (link : Link) (target : Nat) (s : Rat) :
    List Conn → List Node → Rat → Bool → Out
  | [], unv, d, f => .go unv d f
  | k :: ks, unv, d, f =>
    match net.roads k.connecting with
    | none => .crash
    | some r =>
      if k.connecting = target then
        match (contactVia net pivot src.road target .finish).or (contactVia net pivot src.road target .start) with
        | none => .fail
        | some c => conns net vis src pivot link target s ks unv (d + entry c r.len s) true
      else conns net vis src pivot link target s ks (checkRoad net vis unv src link k.connecting r) d f

/-- One round of the search, 6250-6325. -/
def visit (net : Net) (vis : List (Nat × End)) (unv : List Node) (src : Node) (target : Nat) (s : Rat) : Out :=
  match net.roads src.road with
  | none => .crash
  | some pivot =>
    match pivot.link src.exit with
    | none => .crash
    | some (.road id c) =>
      match net.roads id with
      | none => .crash
      | some r =>
        if id = target then .go unv (src.dist + entry c r.len s) true
        else .go (checkRoad net vis unv src (.road id c) id r) src.dist false
    | some (.junction j) =>
      match net.junctions j with
      | none => .go unv src.dist false
      | some x =>
        conns net vis src pivot (.junction j) target s (x.conns.filter fun k => decide (k.incoming = src.road)) unv
          src.dist false

/-- The first node with the smallest distance, 6237-6246: index so far, smallest distance, index of it. -/
def minIdx : Nat → Rat → Nat → List Node → Nat
  | _, _, best, [] => best
  | i, m, best, u :: us => if u.dist < m then minIdx (i + 1) u.dist i us else minIdx (i + 1) m best us

/-- Result of the search. -/
inductive Res
  | crash
  | fail
  /-- found: distance, last node -/
  | found (d : Rat) (last : Node)
  /-- not found: nodes left, distance of the last node -/
  | none (rest : List Node) (d : Rat)
deriving DecidableEq, Repr

/-- The search, 6231-6329; the first argument is the number of rounds left. -/
def search (net : Net) (target : Nat) (s maxDist : Rat) : Nat → List (Nat × End) → List Node → Rat → Res
  | 0, _, unv, d => .none unv d
  | n + 1, vis, unv, d =>
    if unv = [] ∨ ¬ d < maxDist then .none unv d
    else
      let i := minIdx 0 large 0 unv
      match unv[i]? with
      | none => .crash
      | some src =>
        match visit net vis unv src target s with
        | .crash => .crash
        | .fail => .fail
        | .go _ d' true => .found d' src
        | .go unv' d' false => search net target s maxDist n ((src.road, src.exit) :: vis) (unv'.eraseIdx i) d'

/-- The position of the start: road, s, lane, facing along the road, found to be against the driving
direction. -/
structure Start where
  road : Nat
  s : Rat
  lane : Int
  fwd : Bool
  wrong : Bool
deriving DecidableEq, Repr

/-- Distance to an end of the road of the start, 6186-6193. -/
def Start.toEnd (a : Start) (len : Rat) : End → Rat
  | .start => a.s
  | .finish => len - a.s

/-- The first node at an end, 6163-6196; `lane`: the lane it starts from. -/
def firstNode (net : Net) (a : Start) (r : Road) (lane : Int) (e : End) : Node :=
  ⟨a.road, e, a.toEnd r.len e, net.laneAt a.road lane a.s (match e with | .start => 0 | .finish => -1), e⟩

/-- The first nodes, 6126-6198; in both directions the lane of the second one starts from the lane of the
first one, as the variable is overwritten. -/
def firstNodes (net : Net) (a : Start) (r : Road) (both : Bool) : List Node :=
  if both then
    let n1 := firstNode net a r a.lane .start
    match r.pred, r.succ with
    | none, none => []
    | some _, none => [n1]
    | none, some _ => [firstNode net a r a.lane .finish]
    | some _, some _ => [n1, firstNode net a r n1.lane .finish]
  else
    let e := if a.fwd then End.finish else .start
    if r.link e = none then [] else [firstNode net a r a.lane e]

/-- `direction_`, 6336-6354. -/
def direction (a : Start) (root : End) : Rat :=
  match root with
  | .start => if a.fwd then -1 else 1
  | .finish => if a.fwd then 1 else -1

/-- Result of `Calculate`. -/
inductive Ans
  | crash
  /-- -2 -/
  | badId
  /-- -1 -/
  | no
  /-- 0: distance, `direction_`, last node -/
  | ok (dist : Rat) (dir : Rat) (last : Option Node)
deriving DecidableEq, Repr

/-- The end of `Calculate`, 6331-6371. -/
def conclude (a : Start) : Res → Ans
  | .crash => .crash
  | .fail => .no
  | .none _ _ => .no
  | .found d last =>
    .ok (if a.wrong then -(direction a last.root * d) else direction a last.root * d) (direction a last.root) (some last)

/-- Distance on the same road, 6200-6225. -/
def sameRoad (a : Start) (s : Rat) : Rat :=
  let d := s - a.s
  if a.lane < 0 then (if a.fwd then d else -d)
  else (if a.fwd then - -d else -d)

/-- `RoadPath::Calculate`, 6095-6372. -/
def calculate (net : Net) (a : Start) (target : Nat) (s : Rat) (both : Bool) (maxDist : Rat) : Ans :=
  match net.roads a.road, net.roads target with
  | some r, some _ =>
    if a.road = target then .ok (sameRoad a s) 0 none
    else conclude a (search net target s maxDist 100 [] (firstNodes net a r both) 0)
  | _, _ => .badId

/-- SIGN -/
def sign (x : Int) : Int := if x < 0 then -1 else 1

/-- The lane at the target that corresponds to the lane of the start, `Position::Delta` 11716-11754. -/
def adjusted (net : Net) (a : Start) (target : Nat) (s : Rat) : Option Node → Int
  | none => a.lane
  | some x =>
    match x.exit with
    | .start => net.laneAt target (net.enter x.road x.exit (net.laneAt x.road x.lane (-1) 0) target) 0 s
    | .finish => net.laneAt target (net.enter x.road x.exit (net.laneAt x.road x.lane 0 (-1)) target) (-1) s

/-- `dDirection`, 11725-11762. -/
def sameDirection (a : Start) (bFwd both : Bool) (dir : Rat) (last : Option Node) : Bool :=
  let aFwd := match last with
    | none => a.fwd
    | some x => decide (x.exit = .start)
  if both = true ∧ dir = -1 then !(aFwd == bFwd) else aFwd == bFwd

/-- `dLaneId`, 11764-11772. -/
def laneDiff (laneB adj : Int) : Int :=
  let d := laneB - adj
  if sign laneB ≠ sign adj then ((d.natAbs : Int) - 1) * sign d else d

/-- `dt`, 11774-11783. -/
def latDiff (laneA adj : Int) (tA tB : Rat) : Rat := if sign adj = sign laneA then tB - tA else tB + tA

/-- `PositionDiff`. -/
structure Diff where
  ds : Rat
  dt : Rat
  lanes : Int
  opposite : Bool
  same : Bool
deriving DecidableEq, Repr

/-- Absolute value. -/
def ab (x : Rat) : Rat := if x < 0 then -x else x

/-- `Position::Delta`, 11708-11817; `none`: not found. -/
def delta (net : Net) (a : Start) (tA : Rat) (target : Nat) (s : Rat) (laneB : Int) (tB : Rat) (bFwd both : Bool)
    (maxDist : Rat) : Option Diff :=
  match calculate net a target s both maxDist with
  | .ok d dir last =>
    if ab d < maxDist then
      let adj := adjusted net a target s last
      some ⟨d, latDiff a.lane adj tA tB, laneDiff laneB adj, decide (sign laneB ≠ sign adj),
        sameDirection a bFwd both dir last⟩
    else none
  | _ => none

end Verif.Path
