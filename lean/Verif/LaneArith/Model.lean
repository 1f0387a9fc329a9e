import Verif.Common.Macros

/-
Lane id arithmetic of RoadManager and of the lane change action.
Simplification: `int` is unbounded `Int` (no overflow).
-/
namespace Verif.LaneArith
open Verif.Common

/-- `roadmanager::GetRelativeLaneId`, RoadManager.cpp:648-662. -/
def getRelativeLaneId (lane_id offset : Int) : Int :=
  let result := lane_id + offset
  if lane_id = 0 ∨ offset = 0 then
    result
  else if result = 0 ∨ signI result ≠ signI lane_id then
    result + 1 * signI offset
  else
    result

/-- `roadmanager::GetLaneIdDelta`, RoadManager.cpp:664-676. -/
def getLaneIdDelta (from_lane to_lane : Int) : Int :=
  let result := to_lane - from_lane
  if from_lane ≠ to_lane then
    if from_lane = 0 ∨ to_lane = 0 ∨ signI from_lane ≠ signI to_lane then
      result - 1 * signI result
    else
      result
  else
    result

/-- Relative target lane of `LatLaneChangeAction::Start`, OSCPrivateAction.cpp:889-902.
`forward` is `IsAngleForward(ref_entity->pos_.GetHRelative())`, `ref_lane` the lane id of the
reference entity, `value` the parsed `target_->value_`. -/
def laneChangeRelativeTarget (ref_lane value : Int) (forward : Bool) : Int :=
  let target := ref_lane + value * (if forward then 1 else -1)
  if target = 0 ∨ signI ref_lane ≠ signI target then
    signI (target - ref_lane) * ((target.natAbs : Int) + 1)
  else
    target

end Verif.LaneArith
