import Mathlib.Analysis.SpecialFunctions.Trigonometric.Arctan
import Verif.Geom.AngleModel
/-
Model of the simple vehicle with a bicycle model, which interactive and other controllers and the functions `SE_SimpleVehicle...` of the
library use.
Code: EnvironmentSimulator/Modules/Controllers/vehicle.cpp:25-255, vehicle.hpp:17-200.

Simplifications
* `double` is the type of real numbers; `tan`, `atan`, `sin`, `cos` are exact.
* `posZ_`, `pitch_` and the unused `target_speed_` are left out.
-/
namespace Verif.Vehicle

/-- `SMALL_NUMBER`, CommonMini.hpp:52. -/
noncomputable def small : ℝ := 1 / 1000000

/-- `CLAMP`, CommonMini.hpp:62. -/
noncomputable def clamp (x lo hi : ℝ) : ℝ := min hi (max lo x)

/-- `Vehicle`, vehicle.hpp:31-. -/
structure Vehicle where
  x : ℝ
  y : ℝ
  heading : ℝ
  length : ℝ
  speed : ℝ
  velX : ℝ
  velY : ℝ
  slip : ℝ
  headingDot : ℝ
  wheelAngle : ℝ
  wheelRotation : ℝ
  handbrake : Bool
  maxSpeed : ℝ
  maxAcc : ℝ
  maxDec : ℝ
  steeringRate : ℝ
  returnFactor : ℝ
  steeringScale : ℝ
  engineBrake : ℝ
  throttleDisabled : Bool
  steeringDisabled : Bool

/-- The constructor, vehicle.cpp:37-47, with `Reset`, 228-255. -/
noncomputable def new (x y h length speed : ℝ) : Vehicle :=
  ⟨x, y, h, length, speed, 0, 0, 0, 0, 0, 0, false, 70, 20, 20, 5, 4, 2 / 100, 1 / 1000, false, false⟩

/-- `STEERING_MAX_ANGLE` and `MAX_WHEEL_ANGLE`, vehicle.cpp:29, 48. -/
noncomputable def maxAngle : ℝ := 60 * Real.pi / 180

/-- `WHEEL_RADIUS`, vehicle.cpp:34. -/
noncomputable def wheelRadius : ℝ := 35 / 100

/-- `velAngleRelVehicleLongAxis_`, vehicle.cpp:212. -/
noncomputable def slipOf (wheelAngle : ℝ) : ℝ := Real.arctan (15 / 100 * Real.tan wheelAngle)

/-- `headingDot_`, vehicle.cpp:214. -/
noncomputable def turnRate (v : Vehicle) : ℝ := v.speed * Real.sin (slipOf v.wheelAngle) / (v.length * (15 / 100))

/-- The new heading, vehicle.cpp:218-222. -/
noncomputable def turned (h : ℝ) : ℝ :=
  if Geom.fmod h (2 * Real.pi) < 0 then Geom.fmod h (2 * Real.pi) + 2 * Real.pi else Geom.fmod h (2 * Real.pi)

/-- `Vehicle::Update`, vehicle.cpp:204-226. -/
noncomputable def update (v : Vehicle) (dt : ℝ) : Vehicle :=
  { v with
    wheelRotation := Geom.fmod (v.wheelRotation + v.speed * dt / wheelRadius) (2 * Real.pi)
    slip := slipOf v.wheelAngle
    headingDot := turnRate v
    velX := v.speed * Real.cos (slipOf v.wheelAngle + v.heading)
    velY := v.speed * Real.sin (slipOf v.wheelAngle + v.heading)
    heading := turned (v.heading + dt * turnRate v)
    x := v.x + dt * (v.speed * Real.cos (slipOf v.wheelAngle + v.heading))
    y := v.y + dt * (v.speed * Real.sin (slipOf v.wheelAngle + v.heading)) }

/-- The scale of the steering, vehicle.cpp:77, 122, 176; `k` is `steering_scale_` or 0.005. -/
noncomputable def scaleAt (k speed : ℝ) : ℝ := 1 / (1 + k * speed * speed)

/-- `DrivingControlTarget`, vehicle.cpp:70-82: the speed. -/
noncomputable def speedToward (v : Vehicle) (dt target : ℝ) : ℝ :=
  clamp (v.speed + clamp (v.maxAcc * (target - v.speed)) (-v.maxAcc) v.maxAcc * dt) (-v.maxSpeed) v.maxSpeed

/-- `DrivingControlTarget`, vehicle.cpp:70-82. -/
noncomputable def driveTarget (v : Vehicle) (dt target headingToTarget : ℝ) : Vehicle :=
  update { v with
    speed := speedToward v dt target
    wheelAngle := clamp headingToTarget (-scaleAt v.steeringScale (speedToward v dt target) * maxAngle)
      (scaleAt v.steeringScale (speedToward v dt target) * maxAngle) } dt

/-- The speed with a pedal, vehicle.cpp:99, 153. -/
noncomputable def pedalSpeed (v : Vehicle) (dt throttle : ℝ) : ℝ :=
  v.speed + (if throttle < 0 then v.maxDec else v.maxAcc) * throttle * dt

/-- Drag and limits of the speed, vehicle.cpp:106-114, 160-168. -/
noncomputable def dragged (v : Vehicle) (coast : Bool) (s : ℝ) : ℝ :=
  clamp (if coast then s * (1 - v.engineBrake) else s) (-v.maxSpeed) v.maxSpeed

/-- Speed and handbrake, vehicle.cpp:88-116, 142-170: `release` is whether the handbrake is released, `coast` whether drag applies. -/
noncomputable def drive (v : Vehicle) (dt throttle : ℝ) (release coast : Bool) : Vehicle :=
  if v.throttleDisabled then v
  else if v.handbrake then { v with handbrake := !release }
  else if v.speed > 0 ∧ pedalSpeed v dt throttle < 0 then { v with speed := 0, handbrake := true }
  else { v with speed := dragged v coast (pedalSpeed v dt throttle) }

/-- The wheel angle, vehicle.cpp:121-132, 175-183: `k` is the scale factor, `back` whether the wheels return. -/
noncomputable def steered (v : Vehicle) (dt k steering : ℝ) (back : Bool) : ℝ :=
  clamp ((v.wheelAngle + scaleAt k v.speed * v.steeringRate * steering * dt) * (if back then 1 - v.returnFactor * dt else 1))
    (-scaleAt k v.speed * maxAngle) (scaleAt k v.speed * maxAngle)

/-- Steering, vehicle.cpp:118-133, 172-184. -/
noncomputable def steer (v : Vehicle) (dt k steering : ℝ) (back : Bool) : Vehicle :=
  if v.steeringDisabled then v else { v with wheelAngle := steered v dt k steering back }

/-- `THROTTLE` and `STEERING`, vehicle.hpp:17-29. -/
inductive Key
  | minus | none | plus
deriving DecidableEq, Repr

/-- The value of the enumerator. -/
noncomputable def Key.val : Key → ℝ
  | .minus => -1
  | .none => 0
  | .plus => 1

/-- `DrivingControlBinary`, vehicle.cpp:84-136. -/
noncomputable def driveBinary (v : Vehicle) (dt : ℝ) (throttle steering : Key) : Vehicle :=
  update (steer (drive v dt throttle.val (throttle == .none) (throttle == .none)) dt v.steeringScale steering.val
    (steering == .none)) dt

open Classical in
/-- `DrivingControlAnalog`, vehicle.cpp:138-187. -/
noncomputable def driveAnalog (v : Vehicle) (dt throttle steering : ℝ) : Vehicle :=
  update (steer (drive v dt throttle (decide (|throttle| < small ∨ throttle > small)) (decide (|throttle| < small))) dt
    (5 / 1000) steering true) dt

/-- The speed of `DrivingControlAccAndSteer`, vehicle.cpp:191-195. -/
noncomputable def accelerated (v : Vehicle) (dt acceleration : ℝ) : Vehicle :=
  if v.throttleDisabled then v else { v with speed := clamp (v.speed + acceleration * dt) (-v.maxSpeed) v.maxSpeed }

/-- The wheels of `DrivingControlAccAndSteer`, vehicle.cpp:196-200. -/
noncomputable def wheelsTo (v : Vehicle) (angle : ℝ) : Vehicle :=
  if v.steeringDisabled then v else { v with wheelAngle := clamp angle (-maxAngle) maxAngle }

/-- `DrivingControlAccAndSteer`, vehicle.cpp:189-202. -/
noncomputable def driveAccSteer (v : Vehicle) (dt acceleration angle : ℝ) : Vehicle :=
  update (wheelsTo (accelerated v dt acceleration) angle) dt

/-- `SetThrottleDisabled`, vehicle.hpp:134-137. -/
def setThrottleDisabled (v : Vehicle) (b : Bool) : Vehicle := { v with throttleDisabled := b }

/-- `SetSteeringDisabled`, vehicle.hpp:142-145. -/
def setSteeringDisabled (v : Vehicle) (b : Bool) : Vehicle := { v with steeringDisabled := b }

/-- `GetThrottleDisabled`, vehicle.hpp:130-133. -/
def getThrottleDisabled (v : Vehicle) : Bool := v.steeringDisabled

/-- `GetSteeringDisabled`, vehicle.hpp:138-141. -/
def getSteeringDisabled (v : Vehicle) : Bool := v.steeringDisabled

end Verif.Vehicle
