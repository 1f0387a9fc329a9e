/-
The controller that follows a route with lane changes: permission to change the lane, status of a waypoint, choice of the next target.
Code: EnvironmentSimulator/Modules/Controllers/ControllerFollowRoute.cpp:106-126, 201-235, 309-385, 398-454; waypoints of a route:
EnvironmentSimulator/Modules/RoadManager/RoadManager.cpp:14582-14747.

Simplifications
* Distances are rational numbers. Positions are given by road, lane, place along the road and driving direction; the network is given by functions.
* Finding a path between two roads, the lane change action itself and logging are left out.
-/
namespace Verif.FollowRoute

/-! ### Permission to change the lane -/

/-- Another entity: `me` if it is the vehicle itself; `dist` is the distance between the reference points (ControllerFollowRoute.cpp:377-385). -/
structure Other where
  me : Bool
  road : Nat
  lane : Int
  dist : Rat

/-- `SIGN`, CommonMini.hpp:55. -/
def sign (x : Int) : Int := if x < 0 then -1 else 1

/-- The list of lanes filled by `std::generate` (ControllerFollowRoute.cpp:350-365): `n` lanes from `l` in the direction of the other lane. -/
def lanesTo (l o : Int) : List Int :=
  (List.range (l - o).natAbs).map (fun (t : Nat) => if o > l then l + 1 + (t : Int) else l - 1 - (t : Int))

/-- The vehicle. -/
structure Ego where
  road : Nat
  lane : Int
  changing : Bool

/-- Does an entity forbid the change? (ControllerFollowRoute.cpp:339-372) -/
def blocks (e : Ego) (minDist : Rat) (o : Other) : Bool :=
  let sameRoad := o.road == e.road
  let sameLane := o.lane == e.lane
  if o.me || (sameRoad && sameLane) then false
  else (!sameLane && decide (o.dist < minDist) && sign e.lane == sign o.lane && sameRoad) && (lanesTo e.lane o.lane).contains o.lane

/-- `CanChangeLane` (ControllerFollowRoute.cpp:309-375). `width` is the width of a lane of the road at the vehicle, none if there is no such lane. -/
def canChange (e : Ego) (width : Int → Option Rat) (minDist : Rat) (os : List Other) (lane : Int) : Bool :=
  if e.changing then false
  else match width lane with
    | none => false
    | some w => if minDist ≤ 0 then true else if w < 1 / 2 then false else !(os.any (blocks e minDist))

/-! ### Status of a waypoint -/

/-- A place. -/
structure Place where
  road : Nat
  lane : Int
  s : Rat

/-- `WaypointStatus` (ControllerFollowRoute.hpp:31-36). -/
inductive Status
  | missed | passed | notReached
deriving DecidableEq, Repr

/-- `GetWaypointStatus` (ControllerFollowRoute.cpp:398-454). `previous` are the roads linked to the end of the road where the vehicle came in, `laneBefore` the lane
of such a road connected to the lane of the vehicle. -/
def status (v : Place) (forward : Bool) (previous : List Nat) (laneBefore : Nat → Int) (w : Place) : Status :=
  if w.road = v.road ∧ (forward = true ∧ v.s > w.s - 1 / 1000000 ∨ forward = false ∧ v.s < w.s + 1 / 1000000) then
    if w.lane = v.lane then .passed else .missed
  else if w.road = v.road then .notReached
  else if w.road ∈ previous then (if laneBefore w.road = w.lane then .passed else .missed)
  else .notReached

/-- Is a lane change wanted? (ControllerFollowRoute.cpp:106-126) `connected` is the lane connected to the one of the vehicle at the waypoint, `time` the duration of a change. -/
def wants (v : Place) (connected : Int) (time speed : Rat) (w : Place) : Bool :=
  decide (w.road = v.road) && !(w.lane == v.lane || connected == w.lane) && decide ((v.s - w.s).abs < max (time * speed) 25)

/-! ### Waypoints of a route and the next target -/

/-- The roads of the waypoints of a route. -/
structure Route where
  all : List Nat
  scenario : List Nat
  minimal : List Nat
deriving DecidableEq, Repr

/-- Removal of the previous waypoint on the same road (RoadManager.cpp:14648-14667). -/
def removeSame (r : Route) (road : Nat) : Route :=
  if 1 < r.minimal.length ∧ (r.minimal.length = 2 ∧ r.minimal[0]? = r.minimal[1]? ∨ r.minimal.getLast? = some road) then
    { r with minimal := r.minimal.dropLast, scenario := if 1 < r.scenario.length then r.scenario.dropLast else r.scenario }
  else r

/-- `AddWaypoint` (RoadManager.cpp:14642-14747), when there is a path: `between` gives the roads strictly between two roads on it. -/
def addWaypoint (between : Nat → Nat → List Nat) (r : Route) (road : Nat) : Route :=
  match r.minimal with
  | [] => ⟨[road], [road], [road]⟩
  | _ =>
    let r := removeSame r road
    let mid := between (r.minimal.getLast?.getD 0) road
    ⟨r.all ++ mid ++ [road], r.scenario ++ [road], r.minimal ++ mid ++ [road]⟩

/-- The loop of `CalculateWaypoints` (ControllerFollowRoute.cpp:209-235): index of the scenario waypoint to go to, if the road of the vehicle is found; an access out
of range is an error. `n` is the number of all waypoints, `i` the index of the first of the rest; `ahead` tells whether the vehicle has not passed the last waypoint. -/
def pickLoop (scenario : List Nat) (road : Nat) (ahead : Bool) (n : Nat) : Nat → Nat → List Nat → Except Unit (Option Nat)
  | _, _, [] => .ok none
  | i, j, w :: rest =>
    match scenario[j]? with
    | none => .error ()
    | some t =>
      let j := if w = t then j + 1 else j
      if w = road ∧ (i < n - 1 ∨ ahead = true) then .ok (some (min j (scenario.length - 1)))
      else pickLoop scenario road ahead n (i + 1) j rest

/-- The choice of the target: the index of the scenario waypoint, as before if the vehicle is not found on the route. -/
def pick (r : Route) (road : Nat) (ahead : Bool) (current : Nat) : Except Unit Nat :=
  match pickLoop r.scenario road ahead r.all.length 0 0 r.all with
  | .ok (some k) => .ok k
  | .ok none => .ok current
  | .error e => .error e

end Verif.FollowRoute
