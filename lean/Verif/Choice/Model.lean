import Verif.Junction.Theorems
import Verif.Geom.AngleTheorems
import Mathlib.Analysis.Real.Pi.Bounds
/-
The choice of a connecting road where a road ends at a junction.
Code: RoadManager.cpp 10091-10206 (`Position::MoveToConnectingRoad`), 15206-15253 (`Route::GetRoadAtOtherEndOfIncomingRoad`), 5944-5973
(`Junction::GetRoadAtOtherEndOfConnectingRoad`), over the look-ups of `Verif/Junction`.

Simplifications: roads are identified by their ids; the headings at both ends of a connecting road are inputs; random numbers are inputs. A null
pointer dereference is `none`.
-/
namespace Verif.Choice
open Verif.Junction

/-- `RoadLink`: whether it leads to a road, and the id. -/
structure Link where
  isRoad : Bool
  id : Nat
deriving DecidableEq

/-- A road: its junction and its links; `none` is a null pointer. -/
structure Info where
  junction : Option Nat
  pred : Option Link
  succ : Option Link
deriving DecidableEq

/-- `GetRoadById` of a link. -/
def look (net : Nat → Option Info) (id : Nat) : Option Nat := if (net id).isSome then some id else none

/-- One end of `GetRoadAtOtherEndOfConnectingRoad`, RoadManager.cpp 5956-5968: `some` is the value returned. -/
def oneEnd (net : Nat → Option Info) (incoming : Nat) (a b : Option Link) : Option (Option Nat) :=
  match a with
  | none => none
  | some a =>
    if a.isRoad ∧ a.id = incoming then
      match b with
      | none => none
      | some b => if b.isRoad then some (look net b.id) else none
    else none

/-- `Junction::GetRoadAtOtherEndOfConnectingRoad`, RoadManager.cpp 5944-5973. -/
def farEnd (net : Nat → Option Info) (c : Info) (incoming : Nat) : Option Nat :=
  if c.junction = none then none
  else
    match oneEnd net incoming c.pred c.succ with
    | some r => r
    | none =>
      match oneEnd net incoming c.succ c.pred with
      | some r => r
      | none => none

/-- The connections of the junction, RoadManager.cpp 15226-15248: `none` for a null link, `some (some r)` if `r` is returned. -/
def scan (net : Nat → Option Info) (road w : Nat) (i : Info) : List Conn → Option (Option (Option Nat))
  | [] => some none
  | c :: cs =>
    if c.incoming.map (·.id) = some road ∧ c.connecting.id = w then
      match i.succ with
      | none => none
      | some s =>
        if s.isRoad ∧ s.id ≠ road then some (some (look net s.id))
        else
          match i.pred with
          | none => none
          | some p => if p.isRoad ∧ p.id ≠ road then some (some (look net p.id)) else scan net road w i cs
    else scan net road w i cs

/-- `Route::GetRoadAtOtherEndOfIncomingRoad`, RoadManager.cpp 15206-15253, for the waypoints' roads. -/
def exitOf (net : Nat → Option Info) (cs : List Conn) (j road : Nat) : List Nat → Option (Option Nat)
  | [] => some none
  | w :: ws =>
    match net w with
    | none => exitOf net cs j road ws
    | some i =>
      if i.junction = some j then
        match scan net road w i cs with
        | none => none
        | some (some r) => some r
        | some none => exitOf net cs j road ws
      else exitOf net cs j road ws

/-- The loop over the connections with a route, RoadManager.cpp 10125-10143. -/
def routeLoop (net : Nat → Option Info) (cs : List Conn) (road : Nat) (lane : Int) (exit : Option Nat) (track : Nat) :
    List Nat → Nat → Option Nat → Option (Nat × Option Nat)
  | [], cur, opt => some (cur, opt)
  | i :: is, cur, opt =>
    match byIdx road lane i cs 0 with
    | none => none
    | some r =>
      match r.road with
      | none => routeLoop net cs road lane exit track is cur opt
      | some c =>
        match net c with
        | none => routeLoop net cs road lane exit track is cur opt
        | some info =>
          if farEnd net info road = exit then routeLoop net cs road lane exit track is i (if c = track then some i else opt)
          else routeLoop net cs road lane exit track is cur opt

/-- The index for a route, RoadManager.cpp 10117-10148: the roads of the waypoints and the current road of the route. -/
def routeIdx (net : Nat → Option Info) (cs : List Conn) (j road : Nat) (lane : Int) (ws : List Nat) (track : Nat) (n : Nat) : Option Nat :=
  match exitOf net cs j road ws with
  | none => none
  | some exit =>
    match routeLoop net cs road lane exit track (List.range n) 0 none with
    | none => none
    | some (cur, opt) => some (opt.getD cur)

/-- The heading out of a connecting road, RoadManager.cpp 10160-10176: the headings of the road at its start and end, and the contact point (1: start,
2: end). -/
noncomputable def outHeading (ends : ℝ × ℝ) (contact : Option Nat) : ℝ :=
  if contact = some 1 then ends.2 else if contact = some 2 then Geom.angleSum Real.pi ends.1 Real.pi else 0

/-- The difference to the angle selected, RoadManager.cpp 10179-10180. -/
noncomputable def headingDiff (out driving angle : ℝ) : ℝ :=
  Geom.absAngleDiff Real.pi (Geom.interval2PI Real.pi (Geom.angleDiff Real.pi out driving)) angle

/-- The differences of all connections, RoadManager.cpp 10154-10180; `none`: the connecting road is missing. -/
noncomputable def diffs (ends : Nat → Option (ℝ × ℝ)) (cs : List Conn) (road : Nat) (lane : Int) (driving angle : ℝ) : List Nat → Option (List ℝ)
  | [] => some []
  | i :: is =>
    match byIdx road lane i cs 0 with
    | none => none
    | some r =>
      match r.road.bind ends with
      | none => none
      | some e => (diffs ends cs road lane driving angle is).map (headingDiff (outHeading e r.contact) driving angle :: ·)

open Classical in
/-- The loop for the best difference, RoadManager.cpp 10181-10188; `coin` is the random choice between equal ones. -/
noncomputable def best (coin : Nat → Bool) : List ℝ → Nat → Nat → ℝ → Nat
  | [], _, b, _ => b
  | d :: ds, i, b, m =>
    if d < m ∨ (|d - m| < 1 / 1000000 ∧ coin i = true) then best coin ds (i + 1) i d else best coin ds (i + 1) b m

/-- What the choice depends on. -/
structure Setting where
  net : Nat → Option Info
  conns : List Conn
  junction : Nat
  road : Nat
  lane : Int
  ends : Nat → Option (ℝ × ℝ)
  driving : ℝ
  coin : Nat → Bool
  dice : Nat

open Classical in
/-- The index of the connection, RoadManager.cpp 10101-10196: `route` is the valid route, if any; `dice` the random number, reduced to
the numbers available. -/
noncomputable def index (s : Setting) (route : Option (List Nat × Nat)) (angle : ℝ) (n : Nat) : Option Nat :=
  if n = 1 then some 0
  else
    match route with
    | some (ws, track) => routeIdx s.net s.conns s.junction s.road s.lane ws track n
    | none =>
      if angle ≥ 0 then
        match diffs s.ends s.conns s.road s.lane s.driving angle (List.range n) with
        | none => none
        | some ds => some (best s.coin ds 0 0 10000000000)
      else some (s.dice % n)

/-- The connection, RoadManager.cpp 10091-10206: `some none` is the error code. -/
noncomputable def choose (s : Setting) (route : Option (List Nat × Nat)) (angle : ℝ) : Option (Option Result) :=
  if count s.road s.lane s.conns 0 = 0 then some none
  else
    match index s route angle (count s.road s.lane s.conns 0) with
    | none => none
    | some k => (byIdx s.road s.lane k s.conns 0).map some

end Verif.Choice
