import Verif.Transition.Model

/-
Model of `LongSpeedAction` (SpeedAction) and `LatLaneOffsetAction` (LaneOffsetAction).
Code: EnvironmentSimulator/Modules/ScenarioEngine/OSCTypeDefs/OSCPrivateAction.cpp:1065-1144,
1161-1326.

Simplifications
* The performance limits of the entity are constants; nothing else changes the speed of the entity
  between two steps of the action.
* `target_->GetValue()` is an argument of `start` and `step`: for an absolute target it is the same
  value in all calls, for a relative target it depends on the speed of the referred entity at that
  time, `relativeValue`.
* The road position is reduced to the lane offset; the lane id does not change while a lane offset
  action runs.
-/
namespace Verif.Transition

/-- `Object::Performance`, Entities.hpp:212-217. -/
structure Perf where
  maxSpeed : ℝ
  maxAcc : ℝ
  maxDec : ℝ

/-- The action and the speed of its entity: `transition_`, `target_->type_ == RELATIVE_SPEED`,
`continuous_`, `target_speed_reached_`, whether `OSCAction::End()` has been called, and
`object_->GetSpeed()`. OSCPrivateAction.hpp:204-262. -/
structure SpeedAction where
  td : TD
  relative : Bool
  continuous : Bool
  reached : Bool
  ended : Bool
  speed : ℝ

/-- `LongSpeedAction::TargetRelative::GetValue`, OSCPrivateAction.cpp:1161-1179; `factor` is
`value_type_ == FACTOR`. -/
noncomputable def relativeValue (factor : Bool) (objectSpeed value : ℝ) : ℝ :=
  if factor then objectSpeed * value else objectSpeed + value

/-- The conversion of a distance to a duration, OSCPrivateAction.cpp:1201-1233. -/
noncomputable def distanceTime (v0 v1 dist : ℝ) : ℝ :=
  if |v1 - v0| < small then 0
  else if |v0| > small ∧ |v1| > small ∧ sign v0 ≠ sign v1 then
    2 * (|v0 ^ 2 / (v0 ^ 2 + v1 ^ 2)| * dist) / |v0|
      + 2 * (dist - |v0 ^ 2 / (v0 ^ 2 + v1 ^ 2)| * dist) / |v1|
  else 2 * dist / |v0 + v1|

/-- The transition after `SetStartVal` and the conversion, OSCPrivateAction.cpp:1194-1234. -/
noncomputable def startRange (td : TD) (speed tv : ℝ) : TD :=
  if (td.reset.setStartVal speed).dim = .distance then
    (td.reset.setStartVal speed).setParamTargetVal
      (distanceTime (td.reset.setStartVal speed).startVal tv
        (td.reset.setStartVal speed).paramTargetVal)
  else td.reset.setStartVal speed

/-- The limitation of the rate, OSCPrivateAction.cpp:1238-1247. -/
noncomputable def limitRate (perf : Perf) (td : TD) : TD :=
  if td.targetVal > td.startVal then td.setMaxRate perf.maxAcc else td.setMaxRate perf.maxDec

/-- The sign of the rate, OSCPrivateAction.cpp:1249-1253. -/
noncomputable def fixRate (td : TD) : TD :=
  if td.dim = .rate then td.setRate (sign (td.targetVal - td.startVal) * |td.rate|) else td

/-- `LongSpeedAction::Start`, OSCPrivateAction.cpp:1181-1257, the transition. -/
noncomputable def startTD (perf : Perf) (td : TD) (speed tv : ℝ) : TD :=
  fixRate (limitRate perf ((startRange td speed tv).setTargetVal (absLimit tv perf.maxSpeed)))

/-- `LongSpeedAction::Start`, OSCPrivateAction.cpp:1181-1257. `override` tells whether a controller
in override mode owns the longitudinal domain. -/
noncomputable def SpeedAction.start (perf : Perf) (override : Bool) (tv : ℝ) (a : SpeedAction) :
    SpeedAction :=
  if override then ⟨a.td.reset, a.relative, a.continuous, false, true, a.speed⟩
  else ⟨startTD perf a.td a.speed tv, a.relative, a.continuous, false, false,
    (startTD perf a.td a.speed tv).evaluate⟩

/-- The target update at the start of `Step`, OSCPrivateAction.cpp:1272-1275. -/
noncomputable def stepTarget (perf : Perf) (tv : ℝ) (a : SpeedAction) : TD :=
  if a.relative then a.td.setTargetVal (absLimit tv perf.maxSpeed) else a.td

/-- `dt > SMALL_NUMBER ? (x - object_->GetSpeed()) / dt : 0.0`, OSCPrivateAction.cpp:1279, 1290. -/
noncomputable def accTo (x speed dt : ℝ) : ℝ := if dt > small then (x - speed) / dt else 0

/-- `CLAMP(acc, -maxDeceleration, maxAcceleration)`, OSCPrivateAction.cpp:1282, 1296. -/
noncomputable def accLimit (perf : Perf) (acc : ℝ) : ℝ := clamp acc (-perf.maxDec) perf.maxAcc

/-- `ABS_LIMIT(GetSpeed() + acc * dt, maxSpeed)`, OSCPrivateAction.cpp:1284, 1299. -/
noncomputable def speedAfter (perf : Perf) (speed acc dt : ℝ) : ℝ :=
  absLimit (speed + acc * dt) perf.maxSpeed

/-- The transition and the new speed found by `Step`, OSCPrivateAction.cpp:1277-1307. -/
noncomputable def stepSpeed (perf : Perf) (td : TD) (tv speed dt : ℝ) : TD × ℝ :=
  if td.paramTargetVal > 0 ∧ td.paramVal > td.paramTargetVal - small then
    (td, speedAfter perf speed (accLimit perf (accTo tv speed dt)) dt)
  else if accTo (td.step dt).evaluate speed dt > perf.maxAcc + small ∨
      accTo (td.step dt).evaluate speed dt < -(perf.maxDec + small) then
    ((td.step dt).step (-(dt -
        (speedAfter perf speed (accLimit perf (accTo (td.step dt).evaluate speed dt)) dt - speed)
          / accTo (td.step dt).evaluate speed dt)),
      speedAfter perf speed (accLimit perf (accTo (td.step dt).evaluate speed dt)) dt)
  else (td.step dt, (td.step dt).evaluate)

/-- The test for a reached target, OSCPrivateAction.cpp:1309-1312. -/
def isReached (r : TD × ℝ) : Prop :=
  r.1.paramVal > r.1.paramTargetVal - small ∧ |r.2 - r.1.targetVal| < small

open Classical in
/-- The end of `Step`, OSCPrivateAction.cpp:1309-1325. -/
noncomputable def finishStep (perf : Perf) (tv : ℝ) (a : SpeedAction) (r : TD × ℝ) : SpeedAction :=
  if isReached r then
    ⟨r.1, a.relative, a.continuous, true, a.ended || !(a.relative && a.continuous),
      absLimit tv perf.maxSpeed⟩
  else
    ⟨r.1, a.relative, a.continuous, a.reached,
      a.ended || (a.reached && !(a.relative && a.continuous)), r.2⟩

/-- `LongSpeedAction::Step`, OSCPrivateAction.cpp:1259-1326. -/
noncomputable def SpeedAction.step (perf : Perf) (override : Bool) (tv dt : ℝ) (a : SpeedAction) :
    SpeedAction :=
  if override then { a with ended := true }
  else finishStep perf tv a (stepSpeed perf (stepTarget perf tv a) tv a.speed dt)

/-- Steps with an absolute target `tv` as long as the action has not ended: the storyboard steps
only running actions, StoryboardElement.cpp. The list gives the step lengths. -/
noncomputable def runAbs (perf : Perf) (tv : ℝ) : List ℝ → SpeedAction → SpeedAction
  | [], a => a
  | dt :: dts, a => if a.ended then a else runAbs perf tv dts (a.step perf false tv dt)

/-! ### Lane offset action -/

/-- `LatLaneOffsetAction` with the lane id and lane offset of its entity. -/
structure OffsetAction where
  td : TD
  laneId : Int
  offset : ℝ
  ended : Bool

/-- `SIGN(lane_id)`, CommonMini.hpp:55. -/
noncomputable def signLane (i : Int) : ℝ := if i < 0 then -1 else 1

/-- `LatLaneOffsetAction::Start` for an absolute target, OSCPrivateAction.cpp:1065-1098, the
transition. -/
noncomputable def offsetStartTD (a : OffsetAction) (value maxAcc : ℝ) : TD :=
  (((a.td.reset.setTargetVal (signLane a.laneId * value)).setStartVal
    (signLane a.laneId * a.offset))).setParamTargetVal
    (((a.td.reset.setTargetVal (signLane a.laneId * value)).setStartVal
      (signLane a.laneId * a.offset)).paramByPrimPrimPeak maxAcc)

/-- `LatLaneOffsetAction::Start`, OSCPrivateAction.cpp:1065-1098. -/
noncomputable def OffsetAction.start (a : OffsetAction) (value maxAcc : ℝ) : OffsetAction :=
  ⟨offsetStartTD a value maxAcc, a.laneId, a.offset, false⟩

/-- The end test of `LatLaneOffsetAction::Step`, OSCPrivateAction.cpp:1114-1119. -/
def offsetDone (td : TD) : Prop :=
  td.paramVal > td.paramTargetVal - small ∨ |td.evaluate - td.targetVal| < small ∨
    (td.paramVal > 0 ∧ sign (td.evaluate - td.targetVal) ≠ sign (td.startVal - td.targetVal))

open Classical in
/-- `LatLaneOffsetAction::Step`, OSCPrivateAction.cpp:1100-1144. -/
noncomputable def OffsetAction.step (a : OffsetAction) (dt : ℝ) : OffsetAction :=
  if offsetDone a.td then ⟨a.td.step dt, a.laneId, signLane a.laneId * a.td.targetVal, true⟩
  else ⟨a.td.step dt, a.laneId, signLane a.laneId * a.td.evaluate, a.ended⟩

/-- Steps as long as the action has not ended. -/
noncomputable def runOffset : List ℝ → OffsetAction → OffsetAction
  | [], a => a
  | dt :: dts, a => if a.ended then a else runOffset dts (a.step dt)

end Verif.Transition
