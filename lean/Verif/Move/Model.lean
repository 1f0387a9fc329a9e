import Verif.Road.LaneModel
/-
Model of moving a position along the road network:
EnvironmentSimulator/Modules/RoadManager/RoadManager.cpp 9797-9884 (`SetLongitudinalTrackPos`),
10024-10299 (`MoveToConnectingRoad`), 10310-10332 (`DistanceToDS`), 10334-10542 (`MoveAlongS`),
10544-10632 (`SetLanePos`).

Simplifications
* Doubles are rational numbers.
* The relative heading is reduced to whether it points forwards (`IsAngleForward`); turning by 180 degrees
  inverts it, which holds for all headings but the exactly perpendicular ones.
* What is not found in the sources of these functions is a parameter of the network: the connection taken in
  a junction (`connect`; how it is chosen is modelled below) and the lane closest to a place where a lane
  ends without link (`closest`).
* Every lane has a positive width and matches the mask of lane types; routes are not followed; the search of
  the geometry and the coordinates are left out.
* A road without a link and a road with a link whose element id is undefined are both `none`.
-/
namespace Verif.Move
open Verif.Road (Section laneInfo sectionIdx)

/-- `CONTACT_POINT_START`, `CONTACT_POINT_END`. -/
inductive End | start | finish
deriving DecidableEq, Repr

/-- `RoadLink`: to an end of a road or to a junction. -/
inductive Link
  | road (id : Nat) (c : End)
  | junction (id : Nat)
deriving DecidableEq, Repr

/-- `Road`: length, whether the rule is LEFT_HAND_TRAFFIC, lane sections, links. -/
structure Road where
  len : Rat
  left : Bool
  secs : List Section
  pred : Option Link
  succ : Option Link
deriving DecidableEq, Repr

/-- `Road::GetLink`, 3394-3404. -/
def Road.link (r : Road) (succ : Bool) : Option Link := if succ then r.succ else r.pred

/-- `Position::ReturnCode`, RoadManager.hpp 3871-3882. -/
inductive Code | endOfRoad | generic | ok | entered | junction | endOfLane
deriving DecidableEq, Repr

/-- Whether the code is not an error. -/
def Code.fine : Code → Bool
  | .endOfRoad => false
  | .generic => false
  | _ => true

/-- `Position`: `track_id_`, `lane_section_idx_`, `lane_id_`, `lane_idx_`, `s_`, `offset_`, direction of
`h_relative_`, POS_STATUS_END_OF_ROAD. -/
structure Pos where
  road : Nat
  sec : Nat
  lane : Int
  idx : Nat
  s : Rat
  off : Rat
  fwd : Bool
  ended : Bool
deriving DecidableEq, Repr

/-- The road network (`OpenDrive`). -/
structure Net where
  /-- `GetRoadById` -/
  roads : Nat → Option Road
  /-- connection taken in a junction from a road and a lane: road, contact point, lane; `none`: no junction or
  no connection -/
  connect : Nat → Nat → Int → Option (Nat × End × Int)
  /-- lane closest to the place of the position, on a road and in a section -/
  closest : Nat → Nat → Pos → Int

/-- SMALL_NUMBER -/
def small : Rat := 1 / 1000000

/-- The status bit set at the ends of a road without link, 9873-9881 and 10528-10539. -/
def atEnd (r : Road) (s : Rat) : Bool :=
  (decide (s < small) && r.pred.isNone) || (decide (s > r.len - small) && r.succ.isNone)

/-- `SetLongitudinalTrackPos`, RoadManager.cpp 9797-9884. -/
def setLong (net : Net) (p : Pos) (road : Nat) (s : Rat) : Code × Pos :=
  match net.roads road with
  | none => (.generic, { p with road := road, s := s })
  | some r =>
    let p := if road ≠ p.road then { p with road := road, sec := 0, lane := 0, idx := 0 } else p
    if s > r.len then (.endOfRoad, { p with s := r.len, ended := true })
    else
      let s := if s < 0 then 0 else s
      (.ok, { p with s := s, ended := atEnd r s })

/-- `GetLaneInfoByS`, 1804-1894: code (`none`: -1, not reached here), section, lane. -/
def info (net : Net) (road : Nat) (r : Road) (p : Pos) (s : Rat) : Code × Nat × Int :=
  match r.secs[p.sec]? with
  | none => (.ok, p.sec, p.lane)
  | some sec =>
    if s > sec.s + sec.len ∨ s < sec.s then
      let (k, id) := laneInfo r.secs s p.sec p.lane
      match r.secs[k]? with
      | none => (.generic, k, id)
      | some sec' =>
        if p.lane ≠ 0 ∧ (sec'.laneById id).isNone then (.endOfLane, k, net.closest road k p)
        else (.ok, k, id)
    else (.ok, p.sec, p.lane)

/-- `SetLanePosMode`, 10549-10632, without the coordinates. -/
def setLane (net : Net) (p : Pos) (road : Nat) (lane : Int) (s off : Rat) (sec : Option Nat) : Code × Pos :=
  let (c, p) := setLong net { p with off := off } road s
  if c = .generic then (c, { p with lane := lane, off := off })
  else
    match net.roads road with
    | none => (.generic, { p with lane := lane, off := off })
    | some r =>
      let sec := if lane ≠ p.lane ∧ sec = none then sectionIdx (r.secs.map fun x => ⟨x.s, x.len⟩) s 0 else sec
      match sec with
      | some j =>
        let p := { p with sec := j }
        match r.secs[j]? with
        | none => (.generic, p)
        | some x =>
          match x.idxById lane with
          | none => (.generic, p)
          | some i => (c, { p with lane := lane, idx := i })
      | none =>
        let (c', k, id) := info net road r p p.s
        let c := if c = .ok then c' else c
        let p := { p with sec := k, lane := id }
        match r.secs[k]? with
        | none => (c, p)
        | some x =>
          match x.idxById id with
          | none => (.generic, p)
          | some i => (c, { p with idx := i })

/-- Where a connection enters a road. -/
def End.s (c : End) (r : Road) : Rat :=
  match c with
  | .start => 0
  | .finish => r.len

/-- The connection, 10071-10208: code, road, contact point, lane (0: no link of the lane). -/
def leave (net : Net) (road : Nat) (lane : Verif.Road.Lane) (succ : Bool) : Link → Option (Code × Nat × End × Int)
  | .road id c => some (.entered, id, c, ((if succ then lane.succ else lane.pred).getD 0))
  | .junction j => (net.connect j road lane.id).map fun x => (.junction, x.1, x.2.1, x.2.2)

/-- The section given when a road is entered, 10262-10291. -/
def entrySec (next : Road) : Link → Option Nat
  | .road _ .start => some 0
  | .road _ .finish => some (next.secs.length - 1)
  | .junction _ => none

/-- `MoveToConnectingRoad`, 10024-10299; `succ`: the link is the successor.  The code, the contact point and
the position. -/
def moveTo (net : Net) (p : Pos) (link : Link) (succ : Bool) : Code × End × Pos :=
  match net.roads p.road with
  | none => (.generic, .start, p)
  | some r =>
    match r.secs[p.sec]? with
    | none => (.generic, .start, p)
    | some sec =>
      match sec.lanes[p.idx]? with
      | none => (.generic, .start, p)
      | some lane =>
        match leave net p.road lane succ link with
        | none => (.generic, .start, p)
        | some (code, id, c, newLane) =>
          match net.roads id with
          | none => (.generic, c, p)
          | some next =>
            if newLane = 0 then
              let k := match c with
                | .start => 0
                | .finish => next.secs.length - 1
              let l := net.closest id k p
              (.endOfLane, c, { p with road := id, sec := k, lane := l, s := c.s next, off := 0,
                                       idx := ((next.secs[k]?).bind (·.idxById l)).getD 0 })
            else
              let turn := (succ = false ∧ c = .start) ∨ (succ = true ∧ c = .finish)
              let p := { p with fwd := if turn then !p.fwd else p.fwd }
              let off := if turn then -p.off else p.off
              (code, c, (setLane net p id newLane (c.s next) off (entrySec next link)).2)

/-- SIGN, CommonMini.hpp 55. -/
def sign (x : Int) : Int := if x < 0 then -1 else 1

/-- The update of the position at the end of each round of `MoveAlongS`, 10459-10523; `code` is `ret_val`.
On a generic error the position is restored. -/
def settle (net : Net) (p : Pos) (s off : Rat) (code : Code) : Code × Pos :=
  let (c2, q) := setLane net p p.road p.lane s off none
  let code :=
    if sign q.lane ≠ sign p.lane then .generic
    else if c2.fine then
      if q.lane ≠ 0 then
        match net.roads p.road with
        | none => code
        | some r => if (info net p.road r q q.s).1 ≠ .ok then .generic else if code = .ok then c2 else code
      else code
    else c2
  if code = .generic then (code, p) else (code, q)

/-- Absolute value. -/
def ab (x : Rat) : Rat := if x < 0 then -x else x

/-- The sign after entering a road, 10445-10454. -/
def End.signed (e : End) (x : Rat) : Rat :=
  match e with
  | .finish => -x
  | .start => x

/-- The status at the end, 10526-10539. -/
def closing (net : Net) (x : Code × Pos) : Code × Pos :=
  match net.roads x.2.road with
  | none => x
  | some r => (x.1, { x.2 with ended := atEnd r x.2.s })

/-- The loop of `MoveAlongS`, 10394-10524; the first argument is the number of rounds left. -/
def moveLoop (net : Net) (dOff : Rat) : Nat → Pos → Rat → Rat → Code → Code × Pos
  | 0, p, _, _, code => closing net (code, p)
  | n + 1, p, ds, sOff, code =>
    match net.roads p.road with
    | none => (.generic, p)
    | some r =>
      if 0 ≤ p.s + ds ∧ p.s + ds ≤ r.len then closing net (settle net p (p.s + ds) (p.off + sOff) code)
      else
        let succ := decide (p.s + ds > r.len)
        let rest := if succ then p.s + ds - r.len else p.s + ds
        let p := { p with sec := if succ then r.secs.length - 1 else 0 }
        let stop := if succ then r.len else 0
        let fail : Code × Pos :=
          (.endOfRoad, { (setLane net p p.road p.lane stop p.off none).2 with ended := true })
        match r.link succ with
        | none => fail
        | some link =>
          let (c, e, q) := moveTo net p link succ
          if c.fine = false then fail
          else
            let (c', q') := settle net q q.s (q.off + e.signed dOff) c
            if c' = .generic then closing net (c', q')
            else moveLoop net dOff n q' (e.signed (ab rest)) (e.signed dOff) c'

/-- `MoveDirectionMode`. -/
inductive Mode | heading | lane | road
deriving DecidableEq, Repr

/-- Movement along the road axis, 10347-10368. -/
def roadDs (net : Net) (p : Pos) (ds : Rat) (mode : Mode) : Rat :=
  match mode with
  | .heading => ds * (if p.fwd then 1 else -1)
  | .lane =>
    match net.roads p.road with
    | none => ds
    | some r => if r.left then ds * sign p.lane else ds * -sign p.lane
  | .road => ds

/-- `MoveAlongS`, 10334-10542, without route; `ds` is the distance along the road axis. -/
def moveAlongS (net : Net) (p : Pos) (ds dOff : Rat) (mode : Mode) : Code × Pos :=
  moveLoop net dOff 8 p (roadDs net p ds mode) dOff .ok

/-- `DistanceToDS`, 10310-10332, for an offset within the radius. -/
def distanceToDs (curvature t ds : Rat) : Rat :=
  if ab curvature > small then ds * (1 / (1 - curvature * t)) else ds

/-- The choice among several connections by angle, 10150-10189: `diffs` are the differences between the
heading at the far end of the connection and the selector angle, `coins` the random numbers.  State: index,
best index, smallest difference. -/
def pickAngle : Nat → Nat → Rat → List Rat → List Bool → Nat
  | _, best, _, [], _ => best
  | i, best, m, d :: ds, coins =>
    if d < m then pickAngle (i + 1) i d ds coins
    else if ab (d - m) < small then
      if coins.headD false then pickAngle (i + 1) i d ds coins.tail
      else pickAngle (i + 1) best m ds coins.tail
    else pickAngle (i + 1) best m ds coins

/-- The choice by angle; 1E10 stands for no difference yet. -/
def byAngle (diffs : List Rat) (coins : List Bool) : Nat := pickAngle 0 0 10000000000 diffs coins

/-- The choice along a route, 10118-10147: for each connection the road at its other end and the connecting
road; `target` is the road the route goes on to, `track` the road of the route position. -/
def pickRoute (target track : Nat) : Nat → Nat → Option Nat → List (Option Nat × Nat) → Nat
  | _, idx, opt, [] => opt.getD idx
  | i, idx, opt, (out, conn) :: rest =>
    if out = some target then
      pickRoute target track (i + 1) i (if conn = track then some i else opt) rest
    else pickRoute target track (i + 1) idx opt rest

/-- The choice along a route. -/
def byRoute (target track : Nat) (conns : List (Option Nat × Nat)) : Nat := pickRoute target track 0 0 none conns

end Verif.Move
