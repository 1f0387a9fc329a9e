import Verif.Vehicle.Theorems
/-
The offroad follower, ControllerOffroadFollower.cpp:71-110.

Simplifications: numbers are real; the state of object and lead entity used here is a record; the vehicle is that of Verif/Vehicle.
-/
namespace Verif.Offroad
open Verif.Vehicle

/-- What the controller sees in a step: place, heading and speed of the object, place and speed of the lead entity, the target distance,
the speed limit and the top speed of the object. -/
structure View where
  x : ℝ
  y : ℝ
  h : ℝ
  speed : ℝ
  leadX : ℝ
  leadY : ℝ
  leadSpeed : ℝ
  target : ℝ
  limit : ℝ
  topSpeed : ℝ

/-- `ABS_LIMIT`, CommonMini.hpp:60. -/
noncomputable def absLimit (x y : ℝ) : ℝ := if |x| > |y| then Geom.sign x * |y| else x

/-- The direction to the lead entity, ControllerOffroadFollower.cpp:82-84. -/
noncomputable def direction (w : View) : ℝ :=
  Geom.angleDiff Real.pi (Geom.angleOfVector (w.leadX - w.x) (w.leadY - w.y)) w.h

/-- The distance, ControllerOffroadFollower.cpp:87 and CommonMini.cpp:776-779. -/
noncomputable def dist (w : View) : ℝ :=
  Real.sqrt ((w.leadX - w.x) * (w.leadX - w.x) + (w.leadY - w.y) * (w.leadY - w.y))

/-- `steering`, ControllerOffroadFollower.cpp:90. -/
noncomputable def steering (w : View) : ℝ := absLimit (direction w) 1

/-- `throttle`, ControllerOffroadFollower.cpp:91. -/
noncomputable def throttle (w : View) : ℝ :=
  absLimit (5 / 10 * (dist w - w.target) - 5 / 10 * (w.speed - w.leadSpeed)) 1

/-- `ControllerOffroadFollower::Step`, 71-110: the vehicle afterwards; `none` if there is no entity to follow. -/
noncomputable def followStep (w : Option View) (dt : ℝ) (v : Vehicle) : Vehicle :=
  match w with
  | none => v
  | some w => driveAnalog { v with maxSpeed := min (12 / 10 * w.limit) w.topSpeed } dt (throttle w) (steering w)

end Verif.Offroad
