import Verif.Road.ProfileModel

/-!
# Speed limits

Model of the speed limits and types of roads: reading the elements `type` of an
OpenDRIVE file, the limit at a position, the unit reported and the maximum speed
of two controllers.

Simplifications: numbers are exact; the attribute `max` is a number or a word
(which `atof` reads as 0).  A road has a lane section.
-/

namespace Verif.Limit

open Verif.Road (addTypes typeByS)

abbrev Text := List Char

/-- The attribute `max` of an element `speed`. -/
inductive Max where
  | number (v : Rat)
  | word
deriving DecidableEq, Repr

/-- `atof` of it, RoadManager.cpp:3860. -/
def Max.atof : Max → Rat
  | .number v => v
  | .word => 0

/-- An element `speed`; a missing attribute `unit` is read as the empty text. -/
structure SpeedNode where
  max : Max
  unit : Text
deriving DecidableEq, Repr

/-- An element `type` of a road. -/
structure TypeNode where
  s : Rat
  type : Text
  speed : Option SpeedNode
deriving DecidableEq, Repr

/-- `SpeedUnit`, RoadManager.hpp:2882-2888. -/
inductive SpeedUnit where
  | undefined | kmh | ms | mph
deriving DecidableEq, Repr

/-- The numbers of these, RoadManager.hpp:2882-2888. -/
def SpeedUnit.num : SpeedUnit → Nat
  | .undefined => 0 | .kmh => 1 | .ms => 2 | .mph => 3

/-- The number of a `RoadType` (RoadManager.hpp:2893-2908) by its name, RoadManager.cpp:3793-3850. -/
def roadType (t : Text) : Nat :=
  if t = "unknown".toList then 0
  else if t = "rural".toList then 1
  else if t = "motorway".toList then 2
  else if t = "town".toList then 3
  else if t = "lowSpeed".toList then 4
  else if t = "pedestrian".toList then 5
  else if t = "bicycle".toList then 6
  else if t = "townArterial".toList then 7
  else if t = "townCollector".toList then 8
  else if t = "townExpressway".toList then 9
  else if t = "townLocal".toList then 10
  else if t = "townPlayStreet".toList then 11
  else if t = "townPrivate".toList then 12
  else 0

/-- `RoadTypeEntry`, RoadManager.hpp:2910-2915. -/
structure Entry where
  type : Nat
  speed : Rat
  unit : SpeedUnit
deriving DecidableEq, Repr

/-- The entry made of an element, RoadManager.cpp:3791-3881. -/
def entryOf (n : TypeNode) : Entry :=
  match n.speed with
  | none => ⟨roadType n.type, 0, .ms⟩
  | some sp =>
    let v := sp.max.atof
    if sp.unit = "km/h".toList then ⟨roadType n.type, v / (36 / 10), .kmh⟩
    else if sp.unit = "mph".toList then ⟨roadType n.type, v * (44704 / 100000), .mph⟩
    else if sp.unit = "m/s".toList then ⟨roadType n.type, v, .ms⟩
    else ⟨roadType n.type, v, .undefined⟩

/-- The entries of a road, RoadManager.cpp:3789-3888. -/
def entries (ns : List TypeNode) : List (Rat × Entry) := addTypes (ns.map (fun n => (n.s, entryOf n)))

/-- The unit kept for the road network, RoadManager.cpp:3680,3882-3885, over the elements of all
roads in the order of the file. -/
def unitOf (u : SpeedUnit) : List TypeNode → SpeedUnit
  | [] => u
  | n :: ns => unitOf (if u = .undefined then (entryOf n).unit else u) ns

/-- `SE_GetSpeedUnit`, esminiLib.cpp:1986-1995, with a road network. -/
def getSpeedUnit (ns : List TypeNode) : Nat := (unitOf .undefined ns).num

/-- `Road::GetSpeedByS`, RoadManager.cpp:2001-2024. -/
def speedByS (ns : List TypeNode) (s : Rat) : Rat :=
  match typeByS (entries ns) s with
  | some e => e.2.speed
  | none => 0

/-- `Road::GetRoadTypeByS`, RoadManager.cpp:2026-2050. -/
def typeAt (ns : List TypeNode) (s : Rat) : Nat :=
  match typeByS (entries ns) s with
  | some e => e.2.type
  | none => 0

/-- What is read of a lane: `id_` and whether its type is one for driving. -/
structure Lane where
  id : Int
  driving : Bool
deriving DecidableEq, Repr

/-- What is read of a lane section. -/
structure Section where
  s : Rat
  lanes : List Lane
deriving DecidableEq, Repr

/-- `SIGN`, CommonMini.hpp:55. -/
def sign (x : Int) : Int := if x < 0 then -1 else 1

/-- `Lane::IsDriving`, RoadManager.cpp:1712-1720. -/
def Lane.isDriving (l : Lane) : Bool := if l.id = 0 then false else l.driving

/-- `LaneSection::GetNumberOfDrivingLanesSide`, RoadManager.cpp:2194-2206. -/
def drivingSide (sec : Section) (side : Int) : Nat :=
  sec.lanes.countP (fun l => sign l.id == sign side && l.isDriving)

/-- The loop of `Road::GetNumberOfDrivingLanesSide`, RoadManager.cpp:3112-3125, from the section
reached. -/
def sectionAt (sec : Section) (rest : List Section) (s : Rat) : Section :=
  match rest with
  | [] => sec
  | n :: ns => if s < n.s then sec else sectionAt n ns s

/-- `SMALL_NUMBER`, CommonMini.hpp:52. -/
def small : Rat := 1 / 1000000

/-- A road: its types and its lane sections. -/
structure Road where
  types : List TypeNode
  first : Section
  rest : List Section
deriving DecidableEq, Repr

/-- `Position::GetSpeedLimit`, RoadManager.cpp:11194-11211; `none`: no road. -/
def speedLimit (road : Option Road) (s : Rat) (laneId : Int) : Rat :=
  match road with
  | none => 70 / (36 / 10)
  | some r =>
    let l := speedByS r.types s
    if l < small then
      if drivingSide (sectionAt r.first r.rest s) (sign laneId) > 1 then 120 / (36 / 10) else 60 / (36 / 10)
    else l

/-- `MIN`, CommonMini.hpp:57. -/
def cmin (x y : Rat) : Rat := if y < x then y else x

/-- The maximum speed set by `ControllerInteractive::Step`, ControllerInteractive.cpp:53-68. -/
def interactiveMax (r : Road) (s : Rat) (laneId : Int) (factor maxSpeed : Rat) : Rat :=
  let l := speedLimit (some r) s laneId
  let l := if l < small then
      (if drivingSide (sectionAt r.first r.rest s) (sign laneId) > 1 then 110 / (36 / 10) else 60 / (36 / 10))
    else l
  cmin (factor * l) maxSpeed

/-- The maximum speed set by `ControllerOffroadFollower::Step`, ControllerOffroadFollower.cpp:79. -/
def offroadMax (road : Option Road) (s : Rat) (laneId : Int) (maxSpeed : Rat) : Rat :=
  cmin (12 / 10 * speedLimit road s laneId) maxSpeed

end Verif.Limit
