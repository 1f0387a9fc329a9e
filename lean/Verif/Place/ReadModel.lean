import Verif.Geom.LineModel
import Verif.Geom.AngleTheorems
/-
Reading of route positions and of world positions: C164, C165.
Code: EnvironmentSimulator/Modules/ScenarioEngine/SourceFiles/ScenarioReader.cpp:1862-1920, 2102-2226,
EnvironmentSimulator/Modules/ScenarioEngine/OSCTypeDefs/OSCPosition.cpp:284-321,
EnvironmentSimulator/Modules/RoadManager/RoadManager.cpp:3922-3936, 4018-4032, 11153-11172, 12419-12466.

Simplifications
* A relative heading is half a turn or not, and an angle added to it, without normalisation.
* Numbers are rational for route positions, real for world positions. A number read by `atoi` is truncated.
* The place on the route (`SetPathS`) is not modelled. An element occurs at most once.
-/
namespace Verif.Place

/-- Relative orientation: turned by half a turn or not, and angles. -/
structure Turned where
  back : Bool
  h : Rat
  p : Rat
  r : Rat
  deriving DecidableEq

/-- Lateral place: t, or lane and offset. -/
inductive Lateral
  | t (t : Rat)
  | lane (id : Int) (off : Rat)
  deriving DecidableEq

/-- An `Orientation` element; `absolute` is its type, angles not given are `none`. -/
structure Given where
  absolute : Bool := false
  h : Option Rat := none
  p : Option Rat := none
  r : Option Rat := none
  deriving DecidableEq

/-- Children of a `RoutePosition`. -/
inductive Child
  | routeRef
  | orientation (o : Given)
  | inRoad (pathS t : Rat)
  | inLane (pathS : Rat) (laneId : Int) (offset : Rat)
  deriving DecidableEq

/-- The road of the place: direction of the route (1 unless route positions are aligned to the route) and traffic rule. -/
structure Site where
  dir : Int
  left : Bool

/-- `GetDrivingDirectionRelativeRoad() < 0` (RoadManager.cpp:11153-11172). -/
def against (left : Bool) (lane : Int) : Bool := (decide (lane < 0) && left) || (decide (0 < lane) && !left)

/-- `atoi` of a decimal number. -/
def toInt (x : Rat) : Int := if x < 0 then x.ceil else x.floor

/-- Place of a `RoutePosition`: distance along the route, lateral place and orientation. -/
structure Placed where
  pathS : Rat
  lateral : Lateral
  ori : Turned
  deriving DecidableEq

/-- `FromRoadCoordinates` (ScenarioReader.cpp:2177-2190, OSCPosition.cpp:308-321, RoadManager.cpp:12443-12466). -/
def placeRoad (site : Site) (pathS t : Rat) (o : Option Given) : Placed :=
  let lat : Lateral := .t (site.dir * (toInt t : Rat))
  match o with
  | some g => ⟨pathS, lat, ⟨false, g.h.getD 0, g.p.getD 0, g.r.getD 0⟩⟩
  | none => ⟨pathS, lat, ⟨decide (site.dir ≠ 1), 0, 0, 0⟩⟩

/-- `FromLaneCoordinates` (ScenarioReader.cpp:2191-2214, OSCPosition.cpp:284-306, RoadManager.cpp:12419-12441). -/
def placeLane (site : Site) (pathS : Rat) (lane : Int) (off : Rat) (o : Option Given) : Placed :=
  let lat : Lateral := .lane (site.dir * lane) (site.dir * off)
  match o with
  | some g =>
    if against site.left (site.dir * lane) then ⟨pathS, lat, ⟨true, g.h.getD 0, -(g.p.getD 0), -(g.r.getD 0)⟩⟩
    else ⟨pathS, lat, ⟨false, g.h.getD 0, g.p.getD 0, g.r.getD 0⟩⟩
  | none => ⟨pathS, lat, ⟨if 0 < lane then true else decide (site.dir ≠ 1), 0, 0, 0⟩⟩

/-- The loop over the children of a `RoutePosition` (ScenarioReader.cpp:2108-2216): whether a route is known, the orientation, and the place. `none`: a null pointer is followed
(RoadManager.cpp:12421, 12445). -/
def readRoute (site : Site) : List Child → Bool → Option Given → Option Placed → Option (Option Placed)
  | [], _, _, res => some res
  | .routeRef :: l, _, o, res => readRoute site l true o res
  | .orientation g :: l, rt, _, res => readRoute site l rt (some g) res
  | .inRoad s t :: l, rt, o, _ => if rt then readRoute site l rt o (some (placeRoad site s t o)) else none
  | .inLane s id off :: l, rt, o, _ => if rt then readRoute site l rt o (some (placeLane site s id off o)) else none

/-! ### World positions and the offset in the header of the road network -/
open Verif.Geom Real

/-- Offset in the header of an OpenDRIVE file (RoadManager.cpp:3740-3743). -/
structure GeoOffset where
  x : ℝ
  y : ℝ
  z : ℝ
  hdg : ℝ

/-- Start of a geometry of a road (RoadManager.cpp:3929-3936): x, y and heading. -/
noncomputable def roadStart (g : GeoOffset) (x y h : ℝ) : ℝ × ℝ × ℝ :=
  let v := rotate (x + g.x) (y + g.y) g.hdg
  (v.1, v.2, interval2PI π (h + g.hdg))

/-- Height of a point of the road, with the elevation entry in force, if there is one (RoadManager.cpp:4018-4032): `a` is the height by this entry. -/
noncomputable def roadHeight (g : GeoOffset) (a : Option ℝ) : ℝ :=
  match a with
  | some a => a + g.z
  | none => 0

/-- A `WorldPosition` with its z and heading, if given (ScenarioReader.cpp:1871-1914). `ignore`: option `ignore_odr_offset`. -/
noncomputable def worldPos (g : GeoOffset) (ignore : Bool) (x y : ℝ) (z h : Option ℝ) : ℝ × ℝ × Option ℝ × Option ℝ :=
  let z := z.map (· + g.z)
  if ignore then (x, y, z, h)
  else
    let v := rotate (x + g.x) (y + g.y) g.hdg
    (v.1, v.2, z, h.map fun h => interval2PI π (h + g.hdg))

end Verif.Place
