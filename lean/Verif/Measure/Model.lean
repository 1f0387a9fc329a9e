import Verif.Geom.AngleModel
import Verif.Geom.LineModel

/-
What the entity conditions measure for one triggering entity, OSCCondition.cpp:731-1709, with
`Position::Distance` / `getRelativeDistance` (RoadManager.cpp:11603-12004), `Object::TimeHeadway` /
`TimeToCollision` (Entities.cpp:1329-1409), the velocity getters (RoadManager.cpp:11174-11293, 11487-11495)
and the timestamps of the engine (ScenarioEngine.cpp:242-257, 363-391, Entities.cpp:84-118).

Simplifications: doubles are reals. The loops over several entities are in `Verif/Condition/Entity.lean`.
Distances along roads (`Position::Delta`), distances with free space and the point of a trajectory closest to
a position are inputs. Logging is left out.
-/
namespace Verif.Measure
open Verif.Geom

/-- `LARGE_NUMBER`, CommonMini.hpp. -/
noncomputable def large : ℝ := 10000000000

/-- Position and heading of an entity. -/
structure Pose where
  x : ℝ
  y : ℝ
  h : ℝ

/-- The target in the frame of the entity: the out parameters of `Position::getRelativeDistance`,
RoadManager.cpp:11603-11612. -/
noncomputable def relXY (p : Pose) (tx ty : ℝ) : ℝ × ℝ := rotate (tx - p.x) (ty - p.y) (-p.h)

/-- The sign used in `Position::getRelativeDistance`, RoadManager.cpp:11615. -/
noncomputable def frontSign (x : ℝ) : ℝ := if x > 0 then 1 else -1

/-- `Position::getRelativeDistance`, RoadManager.cpp:11603-11619. -/
noncomputable def relDist (p : Pose) (tx ty : ℝ) : ℝ :=
  frontSign (relXY p tx ty).1 *
    Real.sqrt ((relXY p tx ty).1 * (relXY p tx ty).1 + (relXY p tx ty).2 * (relXY p tx ty).2)

/-- `RelativeDistanceType`, RoadManager.hpp. -/
inductive DistType where
  | lateral | longitudinal | euclidian | euclidianAbs | cartesian
deriving DecidableEq

/-- `CoordinateSystem`, RoadManager.hpp. -/
inductive Cs where
  | world | entity | lane | road | trajectory
deriving DecidableEq

/-- The position of an entity on a trajectory. -/
structure OnTraj where
  s : ℝ
  t : ℝ

/-- What is needed of the surroundings of a distance measurement: the result of `Position::Delta` (ds, dt), if a
path was found; the own position on the trajectory, if one is assigned; the position of the target on the same
trajectory, if it has it; and the trajectory coordinate of the closest point, if one was found. -/
structure Around where
  delta : Option (ℝ × ℝ)
  own : Option OnTraj
  same : Option OnTraj
  closest : Option ℝ

/-- `REL_DIST_CARTESIAN` becomes `REL_DIST_EUCLIDIAN`, RoadManager.cpp:11822-11825 and 11922-11925. -/
def plainType : DistType → DistType
  | .cartesian => .euclidian
  | t => t

/-- `CS_ROAD`, RoadManager.cpp:11845-11854 and 11940-11950. -/
def roadPart (t : DistType) : Option (ℝ × ℝ) → Option ℝ
  | none => none
  | some d => some (if t = .lateral then d.2 else d.1)

/-- Closest point on the own trajectory, RoadManager.cpp:11886-11906. -/
noncomputable def closestPart (t : DistType) (p : Pose) (tx ty : ℝ) (own : OnTraj) : Option ℝ → ℝ
  | none => relDist p tx ty
  | some s => if t = .longitudinal then s - own.s else relDist p tx ty

/-- `CS_TRAJECTORY` between two positions, RoadManager.cpp:11863-11908. -/
noncomputable def trajPart (t : DistType) (p : Pose) (tx ty : ℝ) (a : Around) : ℝ :=
  match a.own, a.same with
  | none, _ => relDist p tx ty
  | some o, some b => if t = .longitudinal then b.s - o.s else b.t - o.t
  | some o, none => closestPart t p tx ty o a.closest

/-- `CS_ENTITY`, RoadManager.cpp:11855-11862 and 11951-11958. -/
noncomputable def entityPart (t : DistType) (p : Pose) (tx ty : ℝ) : ℝ :=
  if t = .lateral then (relXY p tx ty).2 else (relXY p tx ty).1

/-- `dist` as left uninitialised for `CS_WORLD`: no branch assigns it; the caller's value `old` stays. -/
noncomputable def axisDistance (cs : Cs) (t : DistType) (p : Pose) (tx ty : ℝ) (a : Around) (old : ℝ) : Option ℝ :=
  match cs with
  | .lane => roadPart t a.delta
  | .road => roadPart t a.delta
  | .entity => some (entityPart t p tx ty)
  | .trajectory => some (trajPart t p tx ty a)
  | .world => some old

/-- `Position::Distance` to another position, RoadManager.cpp:11819-11917; `none` for the error return. -/
noncomputable def distance (cs : Cs) (t : DistType) (p : Pose) (tx ty : ℝ) (a : Around) (old : ℝ) : Option ℝ :=
  match plainType t with
  | .euclidian => some (relDist p tx ty)
  | .euclidianAbs => some |relDist p tx ty|
  | _ => axisDistance cs t p tx ty a old

/-- What `Position::Distance(x, y, ...)` returns for `CS_TRAJECTORY`, RoadManager.cpp:11992: the own position on the
trajectory (0 without one), whatever was measured before. -/
def ownPart (t : DistType) : Option OnTraj → ℝ
  | none => 0
  | some o => if t = .lateral then o.t else o.s

/-- The axes of `Position::Distance(x, y, ...)`, RoadManager.cpp:11932-11994. -/
noncomputable def axisDistanceXY (cs : Cs) (t : DistType) (p : Pose) (tx ty : ℝ) (a : Around) (old : ℝ) : Option ℝ :=
  match cs with
  | .lane => roadPart t a.delta
  | .road => roadPart t a.delta
  | .entity => some (entityPart t p tx ty)
  | .trajectory => some (ownPart t a.own)
  | .world => some old

/-- `Position::Distance` to a point, RoadManager.cpp:11919-12004. -/
noncomputable def distanceXY (cs : Cs) (t : DistType) (p : Pose) (tx ty : ℝ) (a : Around) (old : ℝ) : Option ℝ :=
  match plainType t with
  | .euclidian => some (relDist p tx ty)
  | .euclidianAbs => none
  | _ => axisDistanceXY cs t p tx ty a old

/-- A failed distance counts as `LARGE_NUMBER`, OSCCondition.cpp:750-753, 815-818; Entities.cpp:1338-1341. -/
noncomputable def orLarge (d : Option ℝ) : ℝ := d.getD large

/-- TrigByDistance and TrigByRelativeDistance, OSCCondition.cpp:971-980, 1020-1029. -/
noncomputable def conditionDistance (d : Option ℝ) : ℝ :=
  match d with
  | none => large
  | some d => |d|

open Classical in
/-- `hwt_` of TrigByTimeHeadway, OSCCondition.cpp:755-764, and `Object::TimeHeadway`, Entities.cpp:1338-1346;
`none` for -1. -/
noncomputable def headway (d : Option ℝ) (speed : ℝ) : Option ℝ :=
  if orLarge d < 0 ∨ speed < small then none else some |orLarge d / speed|

open Classical in
/-- The quotient and its checks, Entities.cpp:1390-1404 and OSCCondition.cpp:824-836; `none` for -1. -/
noncomputable def ttcOf (d v : ℝ) : Option ℝ :=
  if |d| < small ∨ |v| < small then none
  else if d / v < 0 then none
  else some (d / v)

/-- Speed and velocity of an entity. -/
structure Motion where
  speed : ℝ
  vx : ℝ
  vy : ℝ

open Classical in
/-- `rel_speed` of `Object::TimeToCollision`, Entities.cpp:1370-1388. -/
noncomputable def closingSpeed (own target : Motion) : ℝ :=
  if |target.vx| < small ∧ |target.vy| < small then own.speed
  else sign own.speed * sign (projectSigned own.vx own.vy target.vx target.vy) *
    (projectSigned own.vx own.vy target.vx target.vy - |target.speed|)

/-- `Object::TimeToCollision`, Entities.cpp:1351-1409. -/
noncomputable def ttcObject (d : Option ℝ) (own target : Motion) : Option ℝ := ttcOf (orLarge d) (closingSpeed own target)

/-- TrigByTimeToCollision with a position, OSCCondition.cpp:812-836. -/
noncomputable def ttcPosition (d : Option ℝ) (own : Motion) : Option ℝ := ttcOf (orLarge d) own.speed

/-- Heading, pitch and roll. -/
structure Angles where
  h : ℝ
  p : ℝ
  r : ℝ

/-- The orientation check of TrigByReachPosition, OSCCondition.cpp:902-903. -/
def orientOk (a b : Angles) (tol : ℝ) : Prop := |a.h - b.h| < tol ∧ |a.p - b.p| < tol ∧ |a.r - b.r| < tol

/-- The distance check of TrigByReachPosition, OSCCondition.cpp:896-897. -/
def reachNear (p : Pose) (tx ty tol : ℝ) : Prop := |relDist p tx ty| < tol

/-- `AngleType`, OSCCondition.hpp. -/
inductive AngleType where
  | heading | pitch | roll
deriving DecidableEq

/-- One of the three angles. -/
def pick (t : AngleType) (a : Angles) : ℝ :=
  match t with
  | .heading => a.h
  | .pitch => a.p
  | .roll => a.r

/-- `GetHRoadInDrivingDirection`, `GetPRoadInDrivingDirection`, `GetRRoadInDrivingDirection`,
RoadManager.cpp:11174-11187; `forward` says that `GetDrivingDirectionRelativeRoad` is positive. -/
noncomputable def laneAngles (road : Angles) (forward : Bool) : Angles :=
  ⟨angleSum Real.pi road.h (if forward then 0 else Real.pi), road.p * (if forward then 1 else -1),
    road.r * (if forward then 1 else -1)⟩

/-- `current_angle_` of TrigByAngle, OSCCondition.cpp:1380-1443; `none` if the entity is skipped. `traj` is the heading
of the assigned trajectory. -/
noncomputable def currentAngle (cs : Cs) (t : AngleType) (own road : Angles) (forward : Bool) (traj : Option ℝ) :
    Option ℝ :=
  match cs with
  | .road => some (pick t own - pick t road)
  | .lane => some (pick t own - pick t (laneAngles road forward))
  | .world => some (pick t own)
  | .trajectory => traj.map fun h => if t = .heading then own.h - h else 0
  | .entity => some 0

/-- The comparison of TrigByAngle, OSCCondition.cpp:1446-1448. -/
def angleOk (angle value tol : ℝ) : Prop := absAngleDiff Real.pi (intervalPI Real.pi angle) value < tol + small

/-- A vector in the plane and its vertical part. -/
structure Vec where
  x : ℝ
  y : ℝ
  z : ℝ

/-- `DirectionDimension`; `any` when not given. -/
inductive Dir where
  | longitudinal | lateral | vertical | any
deriving DecidableEq

/-- `GetVelLong`, `GetAccLong`, RoadManager.cpp:11256-11263, 11279-11286. -/
noncomputable def compLong (v : Vec) (h : ℝ) : ℝ := (rotate v.x v.y (-h)).1

/-- `GetVelLat`, `GetAccLat`, RoadManager.cpp:11247-11254, 11270-11277. -/
noncomputable def compLat (v : Vec) (h : ℝ) : ℝ := (rotate v.x v.y (-h)).2

/-- `Position::GetAcc`, RoadManager.cpp:11487-11495. -/
noncomputable def accTotal (a : Vec) (h : ℝ) : ℝ :=
  sign (a.x * Real.cos (-h) - a.y * Real.sin (-h)) * Real.sqrt (a.x ^ 2 + a.y ^ 2)

/-- `current_speed_` of TrigBySpeed, OSCCondition.cpp:1497-1512. -/
noncomputable def speedValue (d : Dir) (v : Vec) (h speed : ℝ) : ℝ :=
  match d with
  | .longitudinal => compLong v h
  | .lateral => compLat v h
  | .vertical => v.z
  | .any => speed

/-- `current_acceleration_` of TrigByAcceleration, OSCCondition.cpp:1329-1344. -/
noncomputable def accValue (d : Dir) (a : Vec) (h : ℝ) : ℝ :=
  match d with
  | .longitudinal => compLong a h
  | .lateral => compLat a h
  | .vertical => a.z
  | .any => accTotal a h

/-- `current_rel_speed_` of TrigByRelativeSpeed, OSCCondition.cpp:1563-1587: `v`, `speed` of the triggering entity,
`w`, `h`, `wspeed` of the reference entity. -/
noncomputable def relSpeedValue (d : Dir) (v : Vec) (speed : ℝ) (w : Vec) (h wspeed : ℝ) : ℝ :=
  match d with
  | .longitudinal => (Real.cos (-h) * v.x - Real.sin (-h) * v.y) - compLong w h
  | .lateral => (Real.sin (-h) * v.x + Real.cos (-h) * v.y) - compLat w h
  | .vertical => v.z - w.z
  | .any => speed - wspeed

/-! ### Timestamps -/

open Classical in
/-- `IsStandStill`, `IsOffRoad`, `IsEndOfRoad`, Entities.hpp:327-348. -/
noncomputable def isOn (stamp : ℝ) : Bool := decide (stamp > small)

/-- One step of the engine for one entity and one of the three states, ScenarioEngine.cpp:242-257 (end of road),
367-378 (off road), 381-391 (stand still) with the setters Entities.cpp:84-118. -/
noncomputable def stampStep (stamp : ℝ) (state : Bool) (time : ℝ) : ℝ :=
  if state then (if isOn stamp then stamp else time) else 0

/-- A step of the simulation: time and whether the entity is in the state. -/
structure Frame where
  time : ℝ
  state : Bool

/-- The timestamp after a number of steps. -/
noncomputable def stamp : ℝ → List Frame → ℝ
  | s, [] => s
  | s, f :: r => stamp (stampStep s f.state f.time) r

open Classical in
/-- The state "stand still" of a step, ScenarioEngine.cpp:381; the threshold is 1e-3 (line 24). -/
noncomputable def still (speed : ℝ) : Bool := decide (speed > -(1 / 1000) ∧ speed < 1 / 1000)

open Classical in
/-- TrigByStandStill and TrigByOffRoad for a single entity, OSCCondition.cpp:1231-1252, 1272-1293. -/
noncomputable def longEnough (stamp now duration : ℝ) : Bool :=
  decide ((if isOn stamp then now - stamp else 0) > duration)

open Classical in
/-- TrigByEndOfRoad for a single entity, OSCCondition.cpp:1188-1211. -/
noncomputable def longEnoughEnd (stamp now duration : ℝ) : Bool :=
  isOn stamp && decide (now - stamp > duration - small)

/-! ### Relative clearance -/

/-- What is known of another entity: whether a distance was found, longitudinal distance, relative lane, and whether it
is on the other side of the reference line. -/
structure Ref where
  found : Bool
  ds : ℝ
  dLane : Int
  opp : Bool

/-- The parameters of TrigByRelativeClearance. -/
structure Clear where
  fwd : ℝ
  bwd : ℝ
  from_ : Int
  to_ : Int
  opposite : Bool

open Classical in
/-- The checks on one other entity, OSCCondition.cpp:1649-1670. -/
noncomputable def inArea (c : Clear) (r : Ref) : Bool :=
  if !r.found then false
  else if r.ds < -c.bwd ∨ r.ds > c.fwd then false
  else decide (r.dLane ≥ c.from_) && decide (r.dLane ≤ c.to_) && !(!c.opposite && r.opp)

/-- `SIGN` of a lane id. -/
def signI (i : Int) : Int := if i < 0 then -1 else 1

/-- The loop over the driving lanes at the position of the entity, OSCCondition.cpp:1684-1697. -/
def laneExists (c : Clear) (own : Int) (lanes : List Int) : Bool :=
  lanes.any fun l => decide (l ≥ own + c.from_) && decide (l ≤ own + c.to_)
    && (c.opposite || (!c.opposite && decide (signI l = signI own)))

/-- TrigByRelativeClearance for a single entity, OSCCondition.cpp:1612-1698, on an existing road, with at least one
entity to check. -/
noncomputable def clear (c : Clear) (refs : List Ref) (own : Int) (lanes : List Int) : Bool :=
  if refs.any (inArea c) then false else laneExists c own lanes

end Verif.Measure
