import Mathlib.Data.Real.Sqrt
import Mathlib.Data.Real.Sign
/-
Model of the damped spring and of the actions that keep a distance to another entity by means of it.
Code: EnvironmentSimulator/Modules/CommonMini/CommonMini.hpp:1290-1383 (`DampedSpring`) and
ScenarioEngine/OSCTypeDefs/OSCPrivateAction.cpp:1805-1958 (`LongDistanceAction`), 1972-2027 (`LatDistanceAction::Start`),
2097-2103, 2225-2351 (`LatDistanceAction::Step`, road coordinate system), OSCPrivateAction.hpp:36-53, 552-555.

Simplifications
* `double` is the type of real numbers; the square root of a negative number (NaN) is `none`.
* The distances measured (free space or not, coordinate systems) are inputs.
* Of the lateral action the part for the entity coordinate system (2105-2223) and the rigid motion (2246-2281) are left out; whether
  an action is skipped since motion is controlled elsewhere is in `Verif/Control`.
-/
namespace Verif.Spring

/-- `SMALL_NUMBER`, CommonMini.hpp:52. -/
noncomputable def small : ℝ := 1 / 1000000

/-- `LARGE_NUMBER`, CommonMini.hpp:53. -/
noncomputable def large : ℝ := 10000000000

/-! The spring -/

/-- `DampedSpring`: value, target, tension, damping, velocity, acceleration, whether damping is critical. -/
structure Spring where
  x : ℝ
  x0 : ℝ
  t : ℝ
  d : ℝ
  v : ℝ
  a : ℝ
  critical : Bool

/-- The constructor with a damping factor, CommonMini.hpp:1300-1307. -/
noncomputable def damped (x x0 t d : ℝ) : Spring := ⟨x, x0, t, d, 0, 0, false⟩

/-- The constructor with critical damping, CommonMini.hpp:1310-1317. -/
noncomputable def criticallyDamped (x x0 t : ℝ) : Spring := ⟨x, x0, t, 2 * Real.sqrt t, 0, 0, true⟩

/-- The new `a_`, CommonMini.hpp:1321. -/
def Spring.force (s : Spring) : ℝ := -s.t * (s.x - s.x0) - s.d * s.v

/-- The new `v_`, CommonMini.hpp:1322. -/
def Spring.vel (s : Spring) (h : ℝ) : ℝ := s.v + s.force * h

/-- `DampedSpring::Update`, CommonMini.hpp:1319-1324. -/
def Spring.update (s : Spring) (h : ℝ) : Spring :=
  { s with a := s.force, v := s.vel h, x := s.x + s.vel h * h }

/-- `SetTension`, CommonMini.hpp:1355-1362. -/
noncomputable def Spring.setTension (s : Spring) (t : ℝ) : Spring :=
  if s.critical then { s with t := t, d := 2 * Real.sqrt t } else { s with t := t }

/-- `SetDamping`, CommonMini.hpp:1364-1368. -/
def Spring.setDamping (s : Spring) (d : ℝ) : Spring := { s with d := d, critical := false }

/-- `SetOptimalDamping`, CommonMini.hpp:1370-1374. -/
noncomputable def Spring.setOptimalDamping (s : Spring) : Spring :=
  { s with d := 2 * Real.sqrt s.t, critical := true }

/-- `SetTargetValue`, CommonMini.hpp:1346-1349. -/
def Spring.setTarget (s : Spring) (x0 : ℝ) : Spring := { s with x0 := x0 }

/-! Longitudinal distance -/

/-- `DynamicConstraints`, OSCPrivateAction.hpp:36-53. -/
structure Limits where
  acc : ℝ
  accRate : ℝ
  dec : ℝ
  decRate : ℝ
  speed : ℝ

/-- `LongDistanceAction::DisplacementType`, OSCPrivateAction.hpp:453-459. -/
inductive Displacement
  | none | trailing | leading | any
deriving DecidableEq, Repr

/-- The displacement after `Start`, OSCPrivateAction.cpp:1814-1840; `distance` is that to the other entity. -/
noncomputable def Displacement.resolve (p : Displacement) (distance : ℝ) : Displacement :=
  if p = .any then (if distance < 0 then .leading else .trailing) else p

/-- `requested_dist` before the displacement, OSCPrivateAction.cpp:1870-1880. -/
noncomputable def wanted (gap : Bool) (dist targetSpeed : ℝ) : ℝ := if gap then |targetSpeed| * dist else dist

/-- `requested_dist`, OSCPrivateAction.cpp:1882-1889. -/
noncomputable def requested (p : Displacement) (d : ℝ) : ℝ :=
  match p with
  | .trailing => |d|
  | .leading => -|d|
  | _ => d

/-- `LONGITUDINAL_DISTANCE_THRESHOLD`, OSCPrivateAction.cpp:20. -/
noncomputable def threshold : ℝ := 1 / 10

/-- The entity with the action: speed, `acceleration_`, how far it was moved by the action, whether the action ended. -/
structure Follower where
  speed : ℝ
  acc : ℝ
  moved : ℝ
  ended : Bool

/-- The spring constant, OSCPrivateAction.cpp:1867 and 1910-1912. -/
noncomputable def stiffness (l : Limits) (diff : ℝ) : ℝ := (if diff < 0 then l.acc else l.dec) * (4 / 10)

/-- `acc` before the limits, OSCPrivateAction.cpp:1913-1914. -/
noncomputable def pull (l : Limits) (diff speedDiff : ℝ) : ℝ :=
  diff * stiffness l diff - speedDiff * (2 * Real.sqrt (stiffness l diff))

/-- The limits of the acceleration, OSCPrivateAction.cpp:1916-1931. -/
noncomputable def limitAcc (l : Limits) (a : ℝ) : ℝ :=
  if a < 0 then (if a < -l.dec then -l.dec else a) else (if a > l.acc then l.acc else a)

/-- `jerk`, OSCPrivateAction.cpp:1918 and 1926. -/
noncomputable def jerk (l : Limits) (a : ℝ) : ℝ := if a < 0 then -l.decRate else l.accRate

/-- The limits of the change of the acceleration, OSCPrivateAction.cpp:1934-1941; `j` is the jerk, `a` the acceleration
wanted and `old` the one before. -/
noncomputable def limitJerk (j old a dt : ℝ) : ℝ :=
  if j < 0 ∧ a < old then max (old + j * dt) a
  else if j > 0 ∧ a > old then min (old + j * dt) a
  else a

/-- The new `acceleration_`, OSCPrivateAction.cpp:1907-1943. -/
noncomputable def newAcc (l : Limits) (old diff speedDiff dt : ℝ) : ℝ :=
  limitJerk (jerk l (pull l diff speedDiff)) old (limitAcc l (pull l diff speedDiff)) dt

/-- The limits of the speed, OSCPrivateAction.cpp:1946-1953. -/
noncomputable def limitSpeed (m v : ℝ) : ℝ := if v > m then m else if v < -m then -m else v

/-- `LongDistanceAction::Step`, OSCPrivateAction.cpp:1846-1956, unless longitudinal motion is controlled elsewhere. -/
noncomputable def longStep (l : Limits) (continuous : Bool) (req distance targetSpeed : ℝ) (f : Follower) (dt : ℝ) :
    Follower :=
  if l.acc ≥ large ∧ l.dec ≥ large then
    ⟨targetSpeed, f.acc, distance - req, f.ended || (!continuous && decide (|distance - req| < threshold))⟩
  else
    ⟨limitSpeed l.speed (f.speed + newAcc l f.acc (distance - req) (f.speed - targetSpeed) dt * dt),
      newAcc l f.acc (distance - req) (f.speed - targetSpeed) dt, 0,
      f.ended || (!continuous && decide (|distance - req| < threshold))⟩

/-! Lateral distance -/

/-- `LatDistanceAction::DisplacementType`, OSCPrivateAction.hpp:537-543. -/
inductive Side
  | none | left | right | any
deriving DecidableEq, Repr

/-- The displacement after `Start`, OSCPrivateAction.cpp:1981-1985. -/
def Side.resolve (p : Side) : Side := if p = .any then .left else p

/-- `distance_` after `Start`, OSCPrivateAction.cpp:1990-2014: `entity` is the coordinate system, `widths` the sum of the
widths, `sign_` is 0 before the first start. -/
noncomputable def latStart (entity freespace : Bool) (p : Side) (widths distance : ℝ) : ℝ :=
  if entity then
    (if freespace then distance + widths / 2 else distance) * (if p.resolve = .right then -1 else 1)
  else
    match p.resolve with
    | .left => if freespace then -|distance| + -1 * widths / 2 else -|distance|
    | .right => if freespace then |distance| + 1 * widths / 2 else |distance|
    | _ => if freespace then distance + 0 * widths / 2 else distance

/-- The error, OSCPrivateAction.cpp:2082-2094: `dt` is the lateral distance from the other entity to this one, `same` whether
they face the same direction. -/
noncomputable def latError (same : Bool) (dt distance : ℝ) : ℝ :=
  if same then -(dt + distance) else -(dt - distance)

/-- `SIGN`, CommonMini.hpp:55. -/
noncomputable def sgn (x : ℝ) : ℝ := if x < 0 then -1 else 1

/-- `ABS_LIMIT`, CommonMini.hpp:60. -/
noncomputable def absLimit (x y : ℝ) : ℝ := if |x| > |y| then sgn x * |y| else x

/-- `CLAMP`, CommonMini.hpp:62. -/
noncomputable def clamp (x lo hi : ℝ) : ℝ := min hi (max lo x)

/-- The lateral action: `lat_vel_`, `acceleration_`, whether it ended. -/
structure Lateral where
  vel : ℝ
  acc : ℝ
  ended : Bool

/-- The spring of the lateral action, OSCPrivateAction.cpp:2237 and 2293-2294; the damping is critical
(OSCPrivateAction.hpp:562). -/
noncomputable def latSpringOf (l : Limits) (error velDiff : ℝ) : Spring :=
  { (criticallyDamped (-error) 0 0).setTension (4 / 10 * l.acc) with v := velDiff }

/-- The acceleration wanted by the spring, OSCPrivateAction.cpp:2295. -/
noncomputable def latPull (l : Limits) (error velDiff : ℝ) : ℝ := (latSpringOf l error velDiff).force

/-- The new `acceleration_`, OSCPrivateAction.cpp:2298-2302. -/
noncomputable def latAcc (l : Limits) (old want dt : ℝ) : ℝ :=
  clamp (old + clamp (want - old) (-(l.accRate * dt)) (l.accRate * dt)) (-l.acc) l.acc

/-- The limit of the lateral speed, OSCPrivateAction.cpp:2305 and 2317. -/
noncomputable def latTop (l : Limits) (speed : ℝ) : ℝ := min l.speed speed - small

/-- `LATERAL_DISTANCE_THRESHOLD`, OSCPrivateAction.cpp:21. -/
noncomputable def latThreshold : ℝ := 1 / 100

/-- With a limited acceleration, OSCPrivateAction.cpp:2287-2313; `targetVel` is the lateral speed of the other entity. -/
noncomputable def latSpring (l : Limits) (continuous : Bool) (error targetVel speed dt : ℝ) (s : Lateral) : Lateral :=
  ⟨absLimit (s.vel + latAcc l s.acc (latPull l error (s.vel - targetVel)) dt * dt) (latTop l speed),
    latAcc l s.acc (latPull l error (s.vel - targetVel)) dt,
    s.ended || (!continuous && decide (|error| < latThreshold))⟩

/-- With no limit of the acceleration, OSCPrivateAction.cpp:2314-2334. -/
noncomputable def latDirect (l : Limits) (continuous : Bool) (error speed dt : ℝ) (s : Lateral) : Lateral :=
  if sgn (error - sgn error * latTop l speed * dt) ≠ sgn error then
    ⟨error / dt, s.acc, s.ended || !continuous⟩
  else ⟨sgn error * latTop l speed, s.acc, s.ended⟩

/-- The lateral part of a step, OSCPrivateAction.cpp:2284-2335. -/
noncomputable def latMove (l : Limits) (continuous : Bool) (error targetVel speed dt : ℝ) (s : Lateral) : Lateral :=
  if l.acc ≠ large then latSpring l continuous error targetVel speed dt s
  else latDirect l continuous error speed dt s

/-- `long_vel`, OSCPrivateAction.cpp:2337. -/
noncomputable def longVel (speed latVel : ℝ) : Option ℝ :=
  if speed ^ 2 - latVel ^ 2 < 0 then none else some (Real.sqrt (speed ^ 2 - latVel ^ 2))

/-- `LatDistanceAction::Step` in the state `MOVE_DYNAMIC`, OSCPrivateAction.cpp:2282-2351: the action, the speed along the road
and the change of the lateral position. -/
noncomputable def latStep (l : Limits) (continuous : Bool) (error targetVel speed dt : ℝ) (s : Lateral) :
    Option (Lateral × ℝ × ℝ) :=
  (longVel speed (latMove l continuous error targetVel speed dt s).vel).map fun v =>
    (latMove l continuous error targetVel speed dt s, v, (latMove l continuous error targetVel speed dt s).vel * dt)

end Verif.Spring
