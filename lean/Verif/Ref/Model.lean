import Verif.Vehicle.Model
import Verif.Geom.LineModel
/-
The controller that makes a vehicle follow another one (a ghost or a reference entity) with a model of the vehicle.
Code: EnvironmentSimulator/Modules/Controllers/ControllerFollowReference.cpp:86-147, ControllerFollowReference.hpp:29-101.

Simplifications
* Real numbers, exact functions. Speed and position of the entity are those of the model of the vehicle, as the controller has set them in its last step or taken
  them over at activation. Vertical position and wheels are left out.
-/
namespace Verif.Ref
open Real

/-- Properties of the controller (ControllerFollowReference.cpp:35-74) and of the vehicle (line 181). -/
structure Params where
  crossGain : ℝ
  stabilizer : ℝ
  headingGain : ℝ
  curvatureGain : ℝ
  stiffness : ℝ
  wheelbase : ℝ

/-- The reference entity. -/
structure Target where
  x : ℝ
  y : ℝ
  h : ℝ
  speed : ℝ
  hRate : ℝ

/-- `ABS_LIMIT`, CommonMini.hpp:60. -/
noncomputable def absLimit (x y : ℝ) : ℝ := if |x| > |y| then Geom.sign x * |y| else x

/-- `ABS_FLOOR`, CommonMini.hpp:61. -/
noncomputable def absFloor (x y : ℝ) : ℝ := if |x| < |y| then Geom.sign x * |y| else x

/-- `StanleyController::computeSteering` (ControllerFollowReference.hpp:65-69). -/
noncomputable def steering (p : Params) (dy dh speed curvature : ℝ) : ℝ :=
  p.headingGain * dh + Geom.atan2 (p.crossGain * dy) (p.stabilizer + speed) + p.curvatureGain * arctan (curvature * p.wheelbase)

/-- `CriticallyDampedSpring` (ControllerFollowReference.hpp:86-95). -/
noncomputable def acceleration (stiffness pos vel : ℝ) : ℝ := -stiffness * pos - 2 * √stiffness * vel

/-- Distance of the front axle, or of the origin when driving backwards, from the axis of the reference entity (ControllerFollowReference.cpp:94-106). -/
noncomputable def errY (p : Params) (r : Target) (v : Vehicle.Vehicle) : ℝ :=
  if v.speed ≥ 0 then Geom.lineAngleDist (v.x + p.wheelbase * cos v.heading) (v.y + p.wheelbase * sin v.heading) r.x r.y r.h
  else Geom.lineAngleDist v.x v.y r.x r.y r.h

/-- Distance along the axis of the vehicle (ControllerFollowReference.cpp:108-113). -/
noncomputable def errX (r : Target) (v : Vehicle.Vehicle) : ℝ := Geom.lineAngleDist v.x v.y r.x r.y (v.heading + π / 2)

/-- Difference of the headings (ControllerFollowReference.cpp:115). -/
noncomputable def errH (r : Target) (v : Vehicle.Vehicle) : ℝ := Geom.intervalPI π (r.h - v.heading)

/-- Curvature (ControllerFollowReference.cpp:118). -/
noncomputable def curvature (r : Target) : ℝ := absLimit r.hRate (1 / 2) / absFloor r.speed (1 / 1000000)

/-- `Step` (ControllerFollowReference.cpp:86-130). -/
noncomputable def step (p : Params) (r : Target) (dt : ℝ) (v : Vehicle.Vehicle) : Vehicle.Vehicle :=
  Vehicle.driveAccSteer v dt (acceleration p.stiffness (errX r v) (v.speed - r.speed))
    (steering p (errY p r v) (errH r v * Geom.sign v.speed) v.speed (curvature r))

/-- Steps with the reference entity at `r n` in step `n`. -/
noncomputable def run (p : Params) (r : ℕ → Target) (dt : ℝ) (v : Vehicle.Vehicle) : ℕ → Vehicle.Vehicle
  | 0 => v
  | n + 1 => step p (r n) dt (run p r dt v n)

end Verif.Ref
