import Verif.Geom.LineModel
/-
Model of the object sensor.
Code: EnvironmentSimulator/Modules/ScenarioEngine/SourceFiles/IdealSensor.cpp:32-160 (`ObjectSensor`),
Libraries/esminiLib/esminiLib.cpp:2273-2295 (`SE_FetchSensorObjectList`).

Simplifications
* Object pointers are ids; `obj == host_` compares ids.
* Real arithmetic; a comparison with NaN cannot occur, since the argument of `acos` is exact.
* The list of hits is an array of `maxObj` places; writing behind its end is `none` (undefined
  behaviour).
-/
namespace Verif.Geom

/-- What the sensor reads of an object (`Object::pos_` and the getters of `Position`). -/
structure SensorObj where
  /-- `id_`. -/
  id : ℤ
  /-- `IsGhost()`. -/
  ghost : Bool
  /-- `visibilityMask_ & Object::Visibility::SENSORS`. -/
  visible : Bool
  /-- `GetX()`. -/
  x : ℝ
  /-- `GetY()`. -/
  y : ℝ
  /-- `GetZ()`. -/
  z : ℝ
  /-- `GetH()`. -/
  h : ℝ
  /-- `GetVelX()`. -/
  velX : ℝ
  /-- `GetVelY()`. -/
  velY : ℝ
  /-- `GetAccX()`. -/
  accX : ℝ
  /-- `GetAccY()`. -/
  accY : ℝ
  /-- `GetHRate()`. -/
  hRate : ℝ
  /-- `GetHAcc()`. -/
  hAcc : ℝ

/-- The arguments of the constructor, IdealSensor.cpp:32-52. -/
structure Sensor where
  /-- `pos_.x`. -/
  x : ℝ
  /-- `pos_.y`. -/
  y : ℝ
  /-- `pos_.z`. -/
  z : ℝ
  /-- `pos_.h`. -/
  h : ℝ
  /-- `near_`. -/
  near : ℝ
  /-- `far_`. -/
  far : ℝ
  /-- `fovH_`. -/
  fovH : ℝ
  /-- `maxObj_`. -/
  maxObj : ℕ

/-- `ObjectHit`. -/
structure Hit where
  /-- `obj_->id_`. -/
  id : ℤ
  /-- `x_`. -/
  x : ℝ
  /-- `y_`. -/
  y : ℝ
  /-- `z_`. -/
  z : ℝ
  /-- `velX_`. -/
  velX : ℝ
  /-- `velY_`. -/
  velY : ℝ
  /-- `accX_`. -/
  accX : ℝ
  /-- `accY_`. -/
  accY : ℝ
  /-- `yaw_`. -/
  yaw : ℝ
  /-- `yawRate_`. -/
  yawRate : ℝ
  /-- `yawAcc_`. -/
  yawAcc : ℝ

/-- `pos_.x_global`, `pos_.y_global`, IdealSensor.cpp:86-91. -/
noncomputable def sensorX (host : SensorObj) (s : Sensor) : ℝ := host.x + (rotate s.x s.y host.h).1
@[inherit_doc sensorX]
noncomputable def sensorY (host : SensorObj) (s : Sensor) : ℝ := host.y + (rotate s.x s.y host.h).2

/-- `xo`, `yo`, IdealSensor.cpp:93-95. -/
noncomputable def offX (host : SensorObj) (s : Sensor) (o : SensorObj) : ℝ := o.x - sensorX host s
@[inherit_doc offX]
noncomputable def offY (host : SensorObj) (s : Sensor) (o : SensorObj) : ℝ := o.y - sensorY host s

/-- `angle`, IdealSensor.cpp:80-84 and 105-109. -/
noncomputable def sensorAngle (host : SensorObj) (s : Sensor) (o : SensorObj) : ℝ :=
  Real.arccos (dot2 (rotate 1 0 host.h).1 (rotate 1 0 host.h).2
    (normalize (offX host s o) (offY host s o)).1 (normalize (offX host s o) (offY host s o)).2)

/-- The tests of one object, IdealSensor.cpp:66-111. -/
def detects (host : SensorObj) (s : Sensor) (o : SensorObj) : Prop :=
  ¬(o.id = host.id ∨ o.ghost) ∧ o.visible ∧
    ¬(offX host s o * offX host s o + offY host s o * offY host s o < s.near * s.near ∨
      offX host s o * offX host s o + offY host s o * offY host s o > s.far * s.far) ∧
    absAngleDiff Real.pi (sensorAngle host s o) s.h < s.fovH / 2

/-- What is stored for an object, IdealSensor.cpp:113-155. -/
noncomputable def hitOf (host : SensorObj) (s : Sensor) (o : SensorObj) : Hit where
  id := o.id
  x := (rotate (offX host s o) (offY host s o) (-angleSum Real.pi host.h s.h)).1
  y := (rotate (offX host s o) (offY host s o) (-angleSum Real.pi host.h s.h)).2
  z := o.z - (host.z + s.z) + 7 / 10
  velX := (global2Local o.velX o.velY host.velX host.velY (-angleSum Real.pi host.h s.h)).1
  velY := (global2Local o.velX o.velY host.velX host.velY (-angleSum Real.pi host.h s.h)).2
  accX := (global2Local o.accX o.accY host.accX host.accY (-angleSum Real.pi host.h s.h)).1
  accY := (global2Local o.accX o.accY host.accX host.accY (-angleSum Real.pi host.h s.h)).2
  yaw := angleDiff Real.pi o.h (angleSum Real.pi host.h s.h)
  yawRate := angleDiff Real.pi o.hRate host.hRate
  yawAcc := angleDiff Real.pi o.hAcc host.hAcc

open Classical in
/-- The loop of `ObjectSensor::Update`, IdealSensor.cpp:64-158; `acc` holds the hits so far, `none` if
`hitList_[nObj_]` is behind the end of the array allocated for `maxObj` hits. -/
noncomputable def updateLoop (host : SensorObj) (s : Sensor) : List SensorObj → List Hit → Option (List Hit)
  | [], acc => some acc
  | o :: os, acc =>
    if detects host s o then
      if acc.length < s.maxObj then updateLoop host s os (acc ++ [hitOf host s o]) else none
    else updateLoop host s os acc

/-- `ObjectSensor::Update`, IdealSensor.cpp:60-160. -/
noncomputable def update (host : SensorObj) (s : Sensor) (objs : List SensorObj) : Option (List Hit) :=
  updateLoop host s objs []

/-- `SE_FetchSensorObjectList`, esminiLib.cpp:2278-2297: the ids written to the list. -/
def fetch (hits : List Hit) : List ℤ := hits.map Hit.id

end Verif.Geom
